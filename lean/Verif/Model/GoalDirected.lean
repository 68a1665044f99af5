import Verif.Model.Swarm
import Verif.Model.Completion
import Verif.Model.ConvMonitor

/-!
# Model of `emerge/swarm/goal_directed.go` and `emerge/swarm/phase_convergence.go`

A synchronisation run is a machine driven by the events its `select` picks: a cancelled context or a tick. Everything the
code leaves open at a tick (what other goroutines did to the swarm meanwhile, the order in which Go ranges over maps, the
random numbers, the clock) is part of the event. One iteration is atomic; durations do not overflow.
-/

set_option autoImplicit false

namespace Verif
open GoMath

/-- How a piece of code ends: with a value, with a panic, or not within the fuel given to its loops. -/
inductive Exec (β : Type) where
  | ok (b : β)
  | panic
  | running

section
variable {α : Type} [Zero α] [One α] [Add α] [Sub α] [Mul α] [Div α] [Neg α] [LT α] [LE α]
  [DecidableLT α] [DecidableLE α] [BEq α] [OfScientific α] [GoMath α]

/-! ## Phase convergence and variance -/

/-- The distance of a phase from the target inside `MeasurePhaseConvergence`, emerge/swarm/phase_convergence.go:19-24. -/
def targetDistance (targetPhase phase : α) : α :=
  let diff := GoMath.abs (phase - targetPhase)
  if diff > piMul 1 then piMul 2 - diff else diff

/-- `(*Swarm).MeasurePhaseConvergence`, emerge/swarm/phase_convergence.go:9-35, on the collected phases. -/
def phaseConvergence (phases : List α) (targetPhase : α) : α :=
  if phases.length = 0 then 0
  else
    let total := phases.foldl (fun s p => s + targetDistance targetPhase p) 0
    let convergence := 1 - total / ofInt (phases.length : Int) / piMul 1
    if convergence < 0 then 0 else convergence

/-- The circular mean, emerge/swarm/phase_convergence.go:46-59 and emerge/swarm/goal_directed.go:154-168. -/
def meanPhase (phases : List α) : α :=
  let s := phases.foldl (fun (s : α × α) p => (s.1 + sin p, s.2 + cos p)) (0, 0)
  atan2 (s.1 / ofInt (phases.length : Int)) (s.2 / ofInt (phases.length : Int))

/-- The loop `for diff > math.Pi`, emerge/swarm/phase_convergence.go:67-69. -/
def halfTurnDown : Nat → α → Option α
  | 0, x => if x > piMul 1 then none else some x
  | n + 1, x => if x > piMul 1 then halfTurnDown n (x - piMul 2) else some x

/-- The loop `for diff < -math.Pi`, emerge/swarm/phase_convergence.go:70-72. -/
def halfTurnUp : Nat → α → Option α
  | 0, x => if x < -piMul 1 then none else some x
  | n + 1, x => if x < -piMul 1 then halfTurnUp n (x + piMul 2) else some x

/-- The normalised deviation of one phase, emerge/swarm/phase_convergence.go:64-72. -/
def deviation (fuel : Nat) (mean phase : α) : Option α :=
  (halfTurnDown fuel (phase - mean)).bind (halfTurnUp fuel)

/-- The loop at emerge/swarm/phase_convergence.go:63-74. -/
def varianceLoop (fuel : Nat) (mean : α) : List α → α → Option α
  | [], v => some v
  | p :: ps, v => (deviation fuel mean p).bind fun d => varianceLoop fuel mean ps (v + d * d)

/-- `(*Swarm).MeasurePhaseVariance`, emerge/swarm/phase_convergence.go:39-77, on the collected phases; `none` if one of
the two inner loops needs more than `fuel` iterations. -/
def phaseVariance (fuel : Nat) (phases : List α) : Option α :=
  if phases.length = 0 then some 0
  else (varianceLoop fuel (meanPhase phases) phases 0).map fun v => v / ofInt (phases.length : Int)

/-! ## Measuring and judging -/

/-- `measureSystemPattern`, emerge/swarm/goal_directed.go:148-179, on the agents in the order visited and the measured
coherence. -/
def measureSystemPattern (agents : List (Agent α)) (coherence : α) : TargetPattern α :=
  if agents.length = 0 then
    { phase := 0, frequency := 0, amplitude := 0, coherence := 0, waveform := [], stability := 0 }
  else
    { phase := meanPhase (agents.map (·.state.phase))
      frequency := (agents.foldl (fun (s : Int) (a : Agent α) => s + a.state.frequency) 0).tdiv (agents.length : Int)
      amplitude := 1, coherence := coherence, waveform := [], stability := 0.5 }

/-- The tolerance of `isPatternAchieved`, emerge/swarm/goal_directed.go:190-203. -/
def achievementTolerance (cfg : GoalConfig α) (swarmSize : Int) (targetCoherence : α) : α :=
  let limits : CoherenceLimits α := getCoherenceLimits swarmSize
  let tolerance :=
    if swarmSize < 10 then cfg.toleranceSmall
    else if swarmSize < 50 then cfg.toleranceMedium
    else cfg.toleranceLarge
  if targetCoherence ≥ limits.practical * 0.95 then tolerance * 2.0 else tolerance

/-- `isPatternAchieved`, emerge/swarm/goal_directed.go:182-217; `convergence` is the value `MeasurePhaseConvergence` would
return. -/
def isPatternAchieved (cfg : GoalConfig α) (swarmSize : Int) (target current : TargetPattern α) (convergence : α) : Bool :=
  let distance := patternDistance (some current) (some target)
  let tolerance := achievementTolerance cfg swarmSize target.coherence
  let coherenceAchieved := decide (current.coherence ≥ target.coherence - tolerance)
  let distanceAchieved := decide (distance < cfg.patternDistanceThreshold)
  if target.coherence ≥ cfg.highCoherence then
    coherenceAchieved && distanceAchieved && decide (convergence ≥ cfg.phaseConvergenceGoal)
  else coherenceAchieved && distanceAchieved

/-! ## Applying adjustments -/

/-- What `applyPatternCompletion` has measured before its loop, emerge/swarm/goal_directed.go:225-244 and 288-291. -/
structure AdjustCtx (α : Type) where
  cfg : GoalConfig α
  /-- `GetPhaseAdjustment()` -/
  phaseAdj : α
  /-- `GetFrequencyAdjustment()` -/
  freqAdj : Int
  coherence : α
  variance : α
  targetPhase : α
  targetCoherence : α
  /-- `math.Min(float64(swarmSize)/100.0, 1.0)` -/
  sizeNormalized : α

/-- High coherence with spread phases, emerge/swarm/goal_directed.go:261 and 301. -/
def AdjustCtx.spread (c : AdjustCtx α) : Bool :=
  decide (c.coherence ≥ c.cfg.highCoherence) && decide (c.variance > c.cfg.phaseVariance)

/-- The initial value of `adjustmentScale`, emerge/swarm/goal_directed.go:244 and 261-286. -/
def AdjustCtx.scale (c : AdjustCtx α) : α :=
  let distanceToTarget := c.targetCoherence - c.coherence
  if c.spread then c.cfg.baseAdjustmentScale * 1.2
  else if distanceToTarget ≤ 0.01 then 0.1
  else if distanceToTarget ≤ 0.05 then 0.2
  else if distanceToTarget ≤ 0.1 then 0.3
  else if distanceToTarget ≤ 0.2 then 0.4
  else fmax (c.cfg.baseAdjustmentScale * (1 - c.coherence * 0.15)) 0.4

/-- The perturbation of one agent when a low target is exceeded, emerge/swarm/goal_directed.go:252-254. -/
def scatterAgent (a : Agent α) (w : Nat) : Agent α :=
  a.setPhase (a.state.phase + (randFloat64 w - 0.5) * piMul 1 * 0.3)

/-- The frequency part of the loop body, emerge/swarm/goal_directed.go:367-374. -/
def adjustFrequency (freqAdj : Int) (a : Agent α) : Agent α :=
  if GoMath.abs (durationSeconds freqAdj : α) > 0.001 then
    if a.state.frequency + freqAdj > 0 then a.setFrequency (a.state.frequency + freqAdj) else a
  else a

/-- The pull on one agent of a synchronised but spread swarm, emerge/swarm/goal_directed.go:304-312. -/
def pullAgent (c : AdjustCtx α) (scale : α) (w : Nat → Nat) (a : Agent α) : Agent α :=
  let currentPhase := a.state.phase
  let phaseDiff := wrapPhase (c.targetPhase - currentPhase)
  if GoMath.abs phaseDiff > c.cfg.patternDistanceThreshold then
    let correction := phaseDiff * scale * 0.9
    let randomFactor := 0.95 + randFloat64 (w 0) * 0.1
    a.setPhase (wrapPhase (currentPhase + correction * randomFactor))
  else a

/-- The variation of the normal case, emerge/swarm/goal_directed.go:318-322. -/
def AdjustCtx.variation (c : AdjustCtx α) (w : Nat) : α :=
  let rangeSize := c.cfg.variationMax - c.cfg.variationMin
  let baseVariation := c.cfg.variationMin + (1 - c.sizeNormalized) * rangeSize
  let coherenceVariation := c.coherence * c.cfg.coherenceFactor
  let variationScale := baseVariation + coherenceVariation
  (randFloat64 w - 0.5) * variationScale

/-- The threshold of the normal case, emerge/swarm/goal_directed.go:327-328. -/
def AdjustCtx.threshold (c : AdjustCtx α) : α :=
  let sizeThreshold := (1 - c.sizeNormalized) * 0.02
  0.01 + c.coherence * 0.03 + sizeThreshold

/-- Very high coherence with converged phases, emerge/swarm/goal_directed.go:332. -/
def AdjustCtx.settled (c : AdjustCtx α) : Bool :=
  decide (c.coherence > c.cfg.veryHighCoherence) && decide (c.variance < c.cfg.phaseVariance)

/-- The phase of one agent in the normal case, emerge/swarm/goal_directed.go:346-362. -/
def nudgeAgent (c : AdjustCtx α) (scale : α) (w : Nat → Nat) (a : Agent α) : Agent α :=
  let currentPhase := a.state.phase
  let phaseDiff := wrapPhase (c.targetPhase - currentPhase)
  if GoMath.abs phaseDiff > c.threshold then
    let randomRange := 0.3 + (1 - c.sizeNormalized) * 0.2
    let randomFactor := 1 - randomRange / 2.0 + randFloat64 (w 1) * randomRange
    let effectiveAdjustment := (c.phaseAdj * 0.3 + phaseDiff * scale) * randomFactor
    a.setPhase (wrapPhase (currentPhase + effectiveAdjustment * (1 + c.variation (w 0))))
  else if c.coherence > c.cfg.moderateCoherence ∧ randFloat64 (w 1) < c.cfg.perturbationChance then
    a.setPhase (wrapPhase (currentPhase + (randFloat64 (w 2) - 0.5) * c.cfg.perturbationMagnitude))
  else a

/-- The random walk of two agents out of three in a settled swarm, emerge/swarm/goal_directed.go:337-338. -/
def walkAgent (c : AdjustCtx α) (w : Nat → Nat) (a : Agent α) : Agent α :=
  a.setPhase (wrapPhase (a.state.phase + (randFloat64 (w 1) - 0.5) * c.cfg.randomWalkMagnitude))

/-- The loop body, emerge/swarm/goal_directed.go:295-375: the agent and `adjustmentScale`, which a settled swarm shrinks
by another factor 0.2 for every third agent. `w j` is the word of the j-th random number drawn for this agent. -/
def adjustAgent (c : AdjustCtx α) (scale : α) (index : Nat) (w : Nat → Nat) (a : Agent α) : Agent α × α :=
  if c.spread then (adjustFrequency c.freqAdj (pullAgent c scale w a), scale)
  else if c.settled then
    if index % 3 ≠ 0 then (walkAgent c w a, scale)
    else (adjustFrequency c.freqAdj (nudgeAgent c (scale * 0.2) w a), scale * 0.2)
  else (adjustFrequency c.freqAdj (nudgeAgent c scale w a), scale)

/-- The loop over the agents, emerge/swarm/goal_directed.go:294-375. -/
def adjustLoop (c : AdjustCtx α) (word : Nat → Nat → Nat) : List Nat → Nat → α → (Nat → Agent α) → (Nat → Agent α)
  | [], _, _, h => h
  | a :: as, index, scale, h =>
    let r := adjustAgent c scale index (word index) (h a)
    adjustLoop c word as (index + 1) r.2 (setAt h a r.1)

/-- The loop of the low target case, emerge/swarm/goal_directed.go:250-255. -/
def scatterLoop (word : Nat → Nat → Nat) : List Nat → Nat → (Nat → Agent α) → (Nat → Agent α)
  | [], _, h => h
  | a :: as, index, h => scatterLoop word as (index + 1) (setAt h a (scatterAgent (h a) (word index 0)))

/-- `applyPatternCompletion`, emerge/swarm/goal_directed.go:222-376, given what it measures and the agents in the order
visited. -/
def applyCompletion (c : AdjustCtx α) (word : Nat → Nat → Nat) (agents : List Nat) (h : Nat → Agent α) : Nat → Agent α :=
  if c.targetCoherence < 0.4 ∧ c.coherence > c.targetCoherence then scatterLoop word agents 0 h
  else adjustLoop c word agents 0 c.scale h

/-- The number of perturbations of `addStochasticResonance`, emerge/swarm/goal_directed.go:426-427. -/
def perturbCount (cfg : GoalConfig α) (n : Nat) : Int := maxInt (toInt ((ofInt (n : Int) : α) * cfg.affectedAgents)) 1

/-- One perturbation, emerge/swarm/goal_directed.go:444-447. -/
def noisyAgent (cfg : GoalConfig α) (w : Nat) (a : Agent α) : Agent α :=
  a.setPhase (wrapPhase (a.state.phase + (randFloat64 w - 0.5) * cfg.noiseMagnitude))

/-- `addStochasticResonance`, emerge/swarm/goal_directed.go:422-450: in the k-th round `agents k` lists the agents in the
order of iteration, `pick k` determines the index and `noise k` the noise. With no agent `random.Intn(0)` panics. -/
def resonance (cfg : GoalConfig α) (n : Nat) (agents : Nat → List Nat) (pick noise : Nat → Nat) (h : Nat → Agent α) :
    Outcome (Nat → Agent α) :=
  if n = 0 then .panic
  else .ok ((List.range (perturbCount cfg n).toNat).foldl (fun h k =>
    match (agents k)[pick k % n]? with
    | some a => setAt h a (noisyAgent cfg (noise k) (h a))
    | none => h) h)

/-! ## Strategy switching -/

/-- `StrategyPerformance`, emerge/swarm/goal_directed.go:32-39; `lastUsed = none` is the zero time. The fields `Name`,
`TotalReward` and `AvgConvergence` are never read. -/
structure StrategyPerf where
  attempts : Int
  successes : Int
  lastUsed : Option Int

/-- The names of the five strategies, emerge/swarm/goal_directed.go:53-59: the two phase nudges share a name and with it a
performance record. -/
def strategyNames : List String := ["phase_nudge", "phase_nudge", "frequency_lock", "energy_aware", "pulse"]

/-- Selection state: the records by name and the index of the current strategy. -/
structure Selector where
  perf : String → StrategyPerf
  current : Option Nat

/-- The state set up at emerge/swarm/goal_directed.go:64-74. -/
def Selector.initial : Selector := { perf := fun _ => ⟨0, 0, none⟩, current := some 0 }

/-- `time.Since(perf.LastUsed).Seconds()`; since the zero time `time.Since` saturates at the largest duration. -/
def sinceSeconds (now : Int) (lastUsed : Option Int) : α :=
  match lastUsed with
  | some t => durationSeconds (now - t)
  | none => durationSeconds (2 ^ 63 - 1)

/-- The score of a strategy, emerge/swarm/goal_directed.go:397-410. -/
def strategyScore (cfg : GoalConfig α) (now : Int) (p : StrategyPerf) (w : Nat) : α :=
  let score : α := if p.attempts > 0 then ofInt p.successes / ofInt p.attempts else 0
  let bonus := fmin (sinceSeconds now p.lastUsed / durationSeconds cfg.explorationTimeWindow) cfg.explorationBonusMax
  score + bonus + randFloat64 w * cfg.randomExploration

/-- Recording the failure of the current strategy, emerge/swarm/goal_directed.go:384-388. -/
def Selector.recordFailure (s : Selector) (now : Int) : Selector :=
  match s.current with
  | none => s
  | some i =>
    let name := strategyNames.getD i ""
    { s with perf := fun n => if n = name
        then { s.perf n with attempts := (s.perf n).attempts + 1, lastUsed := some now } else s.perf n }

/-- The loop over the strategies, emerge/swarm/goal_directed.go:394-416, on the scores. -/
def bestIndex : List α → Nat → Option Nat × α → Option Nat × α
  | [], _, best => best
  | x :: xs, i, best => bestIndex xs (i + 1) (if x > best.2 then (some i, x) else best)

/-- `switchStrategy`, emerge/swarm/goal_directed.go:379-419; `clock i` and `w i` are the time and the word drawn for the
i-th strategy. -/
def Selector.switch (cfg : GoalConfig α) (now : Int) (clock : Nat → Int) (w : Nat → Nat) (s : Selector) : Selector :=
  let s' := s.recordFailure now
  let scores : List α := strategyNames.zipIdx.map fun p => strategyScore cfg (clock p.2) (s'.perf p.1) (w p.2)
  { s' with current := (bestIndex scores 0 (none, -1)).1 }

/-- `RecordSuccess`, emerge/swarm/goal_directed.go:453-463. -/
def Selector.recordSuccess (s : Selector) : Selector :=
  match s.current with
  | none => s
  | some i =>
    let name := strategyNames.getD i ""
    { s with perf := fun n => if n = name then { s.perf n with successes := (s.perf n).successes + 1 } else s.perf n }

/-! ## The synchronisation run -/

/-- `GoalDirectedSync` together with the swarm it refers to, emerge/swarm/goal_directed.go:19-29. -/
structure Gds (α : Type) where
  swarm : Swarm α
  target : TargetPattern α
  engine : Engine α
  monitor : ConvMonitor α
  selector : Selector
  config : GoalConfig α

/-- `NewGoalDirectedSyncWithConfig`, emerge/swarm/goal_directed.go:47-77; the target is set by every run. -/
def Gds.new (s : Swarm α) (cfg : GoalConfig α) (target : TargetPattern α) : Gds α :=
  { swarm := s, target := target, engine := Engine.new.loadDefaultTemplates, monitor := ConvMonitor.new 10
    selector := Selector.initial, config := cfg }

/-- The object made by `New` and `NewSwarmFromConfig`, emerge/swarm/swarm.go:157-161 and 200-205. -/
def Gds.ofSwarm (s : Swarm α) (target : TargetPattern α) : Gds α := Gds.new s (s.goalConfig.getD defaultConfig) target

/-- What the code leaves open at one tick. -/
structure Tick (α : Type) where
  /-- what other goroutines did to the swarm since the last iteration -/
  others : Swarm α → Swarm α
  /-- the order of the k-th iteration over a map of agents -/
  order : Nat → SyncMap Nat → SyncMap Nat
  order_perm : ∀ k m, (order k m).Perm m
  /-- the order of the iteration over the templates -/
  templates : List (String × TargetPattern α) → List (String × TargetPattern α)
  templates_perm : ∀ l, (templates l).Perm l
  now : Int
  clock : Nat → Int
  /-- words for the random numbers of `applyPatternCompletion`, by agent and draw -/
  word : Nat → Nat → Nat
  pick : Nat → Nat
  noise : Nat → Nat
  bonus : Nat → Nat
  fuel : Nat

/-- `for _, a := range s.Agents()`: the agents in the order visited. -/
def Swarm.rangeAgents (s : Swarm α) (o₁ o₂ : SyncMap Nat → SyncMap Nat) : List Nat := (o₂ (s.allAgents o₁)).map Prod.snd

/-- The phases seen by `collectAgents`. -/
def Swarm.phases (s : Swarm α) (o : SyncMap Nat → SyncMap Nat) : List α := (s.collectAgents o).map fun a => (s.heap a).state.phase

/-- `measureSystemPattern` on a swarm, emerge/swarm/goal_directed.go:148-179. -/
def Swarm.pattern (s : Swarm α) (e : Tick α) : TargetPattern α :=
  measureSystemPattern ((s.rangeAgents (e.order 0) (e.order 1)).map s.heap) (s.measureCoherence (e.order 2))

/-- The check at emerge/swarm/goal_directed.go:119. -/
def Gds.achieved (g : Gds α) (s : Swarm α) (e : Tick α) : Bool :=
  isPatternAchieved g.config ((s.allAgents (e.order 4)).length : Int) g.target (s.pattern e)
    (phaseConvergence (s.phases (e.order 5)) g.target.phase)

/-- The measurements of `applyPatternCompletion`, emerge/swarm/goal_directed.go:222-244 and 288-291. -/
def Gds.adjustCtx (g : Gds α) (s : Swarm α) (e : Tick α) (cp : CompletedPattern α) (variance : α) : AdjustCtx α :=
  { cfg := g.config, phaseAdj := cp.phaseAdjustment, freqAdj := cp.frequencyAdjustment
    coherence := s.measureCoherence (e.order 6), variance := variance
    targetPhase := g.target.phase, targetCoherence := g.target.coherence
    sizeNormalized := fmin (ofInt ((s.allAgents (e.order 7)).length : Int) / 100.0) 1 }

/-- Step 8, emerge/swarm/goal_directed.go:137-140. -/
def Gds.resonate (g : Gds α) (s : Swarm α) (e : Tick α) : Exec (Swarm α) :=
  if g.monitor.isStuck then
    match resonance g.config (s.allAgents (e.order 10)).length
      (fun k => s.rangeAgents (e.order 10) (e.order (11 + k))) e.pick e.noise s.heap with
    | .ok h => .ok { s with heap := h }
    | .panic => .panic
  else .ok s

/-- Steps 5 to 8, emerge/swarm/goal_directed.go:128-140, after the measurement of `current`. -/
def Gds.adjust (g : Gds α) (s : Swarm α) (e : Tick α) (current : TargetPattern α) : Exec (Gds α) :=
  match g.engine.completePattern e.templates current (identifyGaps' current g.target) with
  | .panic => .panic
  | .ok cp =>
    match phaseVariance e.fuel (s.phases (e.order 9)) with
    | none => .running
    | some v =>
      let h := applyCompletion (g.adjustCtx s e cp v) e.word (s.rangeAgents (e.order 7) (e.order 8)) s.heap
      match g.resonate { s with heap := h } e with
      | .ok s => .ok { g with swarm := s }
      | .panic => .panic
      | .running => .running

/-- One iteration of the loop, emerge/swarm/goal_directed.go:108-140: whether the goal was achieved, and the new state. -/
def Gds.iterate (g : Gds α) (e : Tick α) : Exec (Bool × Gds α) :=
  let s := e.others g.swarm
  let current := s.pattern e
  let monitor := g.monitor.record e.now (some current) (s.measureCoherence (e.order 3))
  let g := { g with swarm := s, monitor := monitor }
  if g.achieved s e then .ok (true, g)
  else
    let g := if monitor.shouldSwitch then { g with selector := g.selector.switch g.config e.now e.clock e.bonus } else g
    match g.adjust s e current with
    | .ok g => .ok (false, g)
    | .panic => .panic
    | .running => .running

/-- What the `select` of the loop picks. -/
inductive SyncEvent (α : Type) where
  | cancel
  | tick (e : Tick α)

/-- How a synchronisation run ends; `waiting` means that it is still in the loop. -/
inductive SyncResult where
  | achieved
  | cancelled
  /-- "failed to achieve synchronization after n iterations" -/
  | failed (n : Int)
  | waiting
  | panic
  | running
  deriving DecidableEq, Repr

/-- The loop, emerge/swarm/goal_directed.go:104-144: the result, the number of iterations completed and the state. -/
def Gds.loop (budget : Int) : List (SyncEvent α) → Nat → Gds α → SyncResult × Nat × Gds α
  | evs, k, g =>
    if (k : Int) < budget then
      match evs with
      | [] => (.waiting, k, g)
      | .cancel :: _ => (.cancelled, k, g)
      | .tick e :: evs =>
        match g.iterate e with
        | .panic => (.panic, k, g)
        | .running => (.running, k, g)
        | .ok (true, g) => (.achieved, k + 1, g)
        | .ok (false, g) => Gds.loop budget evs (k + 1) g
    else (.failed budget, k, g)

/-- `maxIterations`, emerge/swarm/goal_directed.go:94-96. `math.Inf(1)` is written `MaxFloat64 * 2`, which is +Inf in
doubles and merely a large number over the reals. -/
def iterationBudget (cfg : GoalConfig α) (swarmSize : Int) (target : α) : Int :=
  let timeFactor : α := match getConvergenceTimeFactor swarmSize target with
    | some f => f
    | none => maxFloat * 2.0
  minInt (toInt (cfg.maxIterationsFactor * timeFactor)) 1000

/-- The target after the adjustment at emerge/swarm/goal_directed.go:85-91. -/
def adjustTarget (swarmSize : Int) (target : TargetPattern α) : TargetPattern α :=
  let limits : CoherenceLimits α := getCoherenceLimits swarmSize
  if target.coherence > limits.theoretical then { target with coherence := limits.theoretical } else target

/-- `AchieveSynchronization`, emerge/swarm/goal_directed.go:80-145. `time.NewTicker` panics for a non-positive interval. -/
def Gds.achieve (g : Gds α) (order : SyncMap Nat → SyncMap Nat) (target : TargetPattern α) (evs : List (SyncEvent α)) :
    SyncResult × Nat × Gds α :=
  let swarmSize : Int := (g.swarm.allAgents order).length
  let t := adjustTarget swarmSize target
  let g := { g with target := t, monitor := g.monitor.setTarget (some t) }
  let budget := iterationBudget g.config swarmSize t.coherence
  if g.config.updateInterval ≤ 0 then (.panic, 0, g) else g.loop budget evs 0

/-- The target pattern of `Run` and `RunContinuous`, emerge/swarm/swarm.go:448-454 and
emerge/swarm/swarm_continuous_run.go:169-175. -/
def Swarm.targetPattern (s : Swarm α) : TargetPattern α :=
  { phase := s.goalState.phase, frequency := s.goalState.frequency, amplitude := 1, coherence := s.goalState.coherence
    waveform := [], stability := 0.9 }

/-- `(*Swarm).Run`, emerge/swarm/swarm.go:446-458. -/
def Swarm.run (s : Swarm α) (order : SyncMap Nat → SyncMap Nat) (evs : List (SyncEvent α)) : SyncResult × Nat × Gds α :=
  (Gds.ofSwarm s s.targetPattern).achieve order s.targetPattern evs

end
end Verif
