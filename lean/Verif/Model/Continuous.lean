import Verif.Model.GoalDirected

/-!
# Model of `emerge/swarm/swarm_continuous_run.go`

The `select` loop of `RunContinuous` is a state machine driven by events: what the scheduler, the clock, the context and the
synchronisation goroutines do. A goroutine running `AchieveSynchronization` is an entry of `alive` until it has sent its result
into its channel; the result is that of the model `Gds.achieve`. The swarm is changed concurrently, so the coherence measured
at a tick is part of the event.
-/

set_option autoImplicit false

namespace Verif
open GoMath

section
variable {α : Type} [Zero α] [One α] [Add α] [Sub α] [Mul α] [Div α] [Neg α] [LT α] [LE α]
  [DecidableLT α] [DecidableLE α] [BEq α] [OfScientific α] [GoMath α]

/-- `monitorState`, emerge/swarm/swarm_continuous_run.go:82-88. -/
structure MonState (α : Type) where
  lastCoherence : α
  peakCoherence : α
  stableCount : Int
  syncActive : Bool
  lastSyncTime : Int

/-- `needsResync`, emerge/swarm/swarm_continuous_run.go:92-138: the decision and the state afterwards. -/
def needsResync (cfg : RecoveryConfig α) (target : α) (st : MonState α) (current : α) : Bool × MonState α :=
  if current < cfg.minimumViableCoherence then (true, st)
  else
    let acceptableMin := target * cfg.targetMarginRatio
    if current < acceptableMin then (true, st)
    else
      let drop := st.peakCoherence - current
      if drop > st.peakCoherence * cfg.smallDropRatio ∧ drop > st.peakCoherence * cfg.largeDropRatio then (true, st)
      else if drop > st.peakCoherence * cfg.smallDropRatio ∧ current < target then (true, st)
      else
        let improvement := current - st.lastCoherence
        if GoMath.abs improvement < 0.001 ∧ st.stableCount + 1 > cfg.stuckThreshold ∧ current < acceptableMin then
          (true, { st with stableCount := 0 })
        else
          let st' :=
            if GoMath.abs improvement < 0.001 then { st with stableCount := st.stableCount + 1 }
            else if improvement > 0.001 then { st with stableCount := 0 }
            else st
          (decide (current < st.lastCoherence - st.lastCoherence * cfg.smallDropRatio), st')

/-- What `ctx.Err()` can be. -/
inductive CtxErr where
  | canceled
  | deadlineExceeded
  deriving DecidableEq, Repr

/-- The errors of `AchieveSynchronization` and `RunContinuous`. -/
inductive ContErr where
  | ctx (e : CtxErr)
  /-- "failed to achieve synchronization after n iterations" -/
  | failed (n : Int)
  deriving DecidableEq, Repr

/-- The variables of a continuous run. `starts` is a ghost variable: for every synchronisation started after the first, the time
at which `time.Since` was evaluated and the time stored into `lastSyncTime`, latest first. -/
structure Cont (α : Type) where
  gds : Gds α
  /-- `*targetPattern`, which `AchieveSynchronization` may change -/
  target : TargetPattern α
  recovery : RecoveryConfig α
  /-- `s.goalState.Coherence`, never written after construction -/
  goal : α
  mon : MonState α
  /-- the context's error, once it is done -/
  ctx : Option CtxErr
  /-- the number of the latest synchronisation, whose channel is `syncDone` -/
  current : Nat
  /-- synchronisations that have not sent their result yet -/
  alive : List Nat
  /-- the content of the channel `syncDone` -/
  buffer : Option (Option ContErr)
  starts : List (Int × Int)

/-- `startSync`, emerge/swarm/swarm_continuous_run.go:178-195. The monitor `s.convergence`, reset too, is not part of this
state. -/
def Cont.startSync (c : Cont α) : Cont α :=
  { c with gds := { c.gds with monitor := c.gds.monitor.reset }, current := c.current + 1, alive := c.alive ++ [c.current + 1]
           buffer := none }

/-- The beginning of `RunContinuous`, emerge/swarm/swarm_continuous_run.go:162-210: `coherence` is the first measurement, `now`
the time stored. A negative interval makes `time.NewTicker` panic. -/
def Gds.runContinuous (g : Gds α) (ctx : Option CtxErr) (coherence : α) (now : Int) : Outcome (Cont α) :=
  let recovery := if g.swarm.recoveryConfig.checkInterval = 0 then defaultRecoveryConfig g.swarm.goalState.coherence
    else g.swarm.recoveryConfig
  let c : Cont α :=
    { gds := g, target := g.swarm.targetPattern, recovery := recovery, goal := g.swarm.goalState.coherence
      mon := { lastCoherence := coherence, peakCoherence := 0, stableCount := 0, syncActive := true, lastSyncTime := now }
      ctx := ctx, current := 0, alive := [], buffer := none, starts := [] }
  if recovery.checkInterval ≤ 0 then .panic else .ok c.startSync

/-- What can happen. -/
inductive ContEvent (α : Type) where
  /-- the context is cancelled or its deadline passes -/
  | ctxDone (e : CtxErr)
  /-- the goroutine of synchronisation `id` returns after the given events -/
  | finish (id : Nat) (order : SyncMap Nat → SyncMap Nat) (evs : List (SyncEvent α))
  /-- the `select` picks `ctx.Done()` -/
  | seeCtx
  /-- the `select` picks `syncDone` -/
  | receive
  /-- the `select` picks the ticker; the coherence measured, the time `time.Since` compares with and the time stored -/
  | tick (coherence : α) (check stamp : Int)

/-- What an event leads to. -/
inductive ContNext (α : Type) where
  | goOn (c : Cont α)
  | exit (e : ContErr)
  /-- a goroutine panics, which ends the program -/
  | crash

/-- The peak after a measurement, emerge/swarm/swarm_continuous_run.go:229-235. -/
def newPeak (peak current : α) : α := if current > peak then current else peak * 0.9995

/-- The body of the ticker case, emerge/swarm/swarm_continuous_run.go:225-252. -/
def Cont.onTick (c : Cont α) (coherence : α) (check stamp : Int) : Cont α :=
  let mon := { c.mon with peakCoherence := newPeak c.mon.peakCoherence coherence }
  let r := needsResync c.recovery c.goal mon coherence
  let c := { c with mon := r.2 }
  let c :=
    if r.1 = true ∧ c.mon.syncActive = false ∧ check - c.mon.lastSyncTime > 500 * millisecond then
      let c := c.startSync
      { c with mon := { c.mon with syncActive := true, lastSyncTime := stamp, peakCoherence := coherence }
               starts := (check, stamp) :: c.starts }
    else c
  { c with mon := { c.mon with lastCoherence := coherence } }

/-- The value a finished synchronisation sends; `none` while it has not finished. -/
def SyncResult.sent (r : SyncResult) (ctx : CtxErr) : Option (Option ContErr) :=
  match r with
  | .achieved => some none
  | .cancelled => some (some (.ctx ctx))
  | .failed n => some (some (.failed n))
  | _ => none

/-- One event, emerge/swarm/swarm_continuous_run.go:213-254; `none` means that it cannot happen in this state. -/
def Cont.step (c : Cont α) (e : ContEvent α) : Option (ContNext α) :=
  match e with
  | .ctxDone err => if c.ctx = none then some (.goOn { c with ctx := some err }) else none
  | .seeCtx => c.ctx.map fun err => .exit (.ctx err)
  | .receive =>
    match c.buffer with
    | none => none
    | some v =>
      let c := { c with buffer := none, mon := { c.mon with syncActive := false } }
      match v with
      | none => some (.goOn c)
      | some (.ctx .canceled) => some (.goOn c)
      | some err => some (.exit err)
  | .tick coherence check stamp => some (.goOn (c.onTick coherence check stamp))
  | .finish id order evs =>
    if id ∈ c.alive then
      let r := c.gds.achieve order c.target evs
      if r.1 = .panic then some .crash
      else if r.1 = .cancelled ∧ id = c.current ∧ c.ctx = none then none
      else
        (r.1.sent (c.ctx.getD .canceled)).map fun v =>
          .goOn { c with gds := r.2.2, target := r.2.2.target, alive := c.alive.filter (· ≠ id)
                         buffer := if id = c.current then some v else c.buffer }
    else none

/-- A schedule of events, all possible, after which the run is still going on. -/
inductive Cont.Steps : Cont α → List (ContEvent α) → Cont α → Prop where
  | nil (c : Cont α) : Cont.Steps c [] c
  | snoc {c c' c'' : Cont α} {es : List (ContEvent α)} {e : ContEvent α} : Cont.Steps c es c' → c'.step e = some (.goOn c'') →
      Cont.Steps c (es ++ [e]) c''

end
end Verif
