import Verif.Model.Core

/-!
# Model of `emerge/core/context.go`, `emerge/decision`, `emerge/strategy` and `emerge/goal/manager.go`
-/

set_option autoImplicit false

namespace Verif
open GoMath

/-- `core.Context`, emerge/core/context.go:5-11. -/
structure Context (α : Type) where
  neighbors : Int
  density : α
  stability : α
  progress : α
  localCoherence : α

/-- `core.Action`, emerge/core/context.go:15-20. -/
structure Action (α : Type) where
  type : String
  value : α
  cost : α
  benefit : α

section
variable {α : Type} [Zero α] [One α] [Add α] [Sub α] [Mul α] [Div α] [Neg α] [LT α] [LE α]
  [DecidableLT α] [DecidableLE α] [BEq α] [OfScientific α] [GoMath α]

/-- The literal `core.Action{Type: "maintain"}`: all numeric fields are zero. -/
def Action.maintain0 : Action α := { type := "maintain", value := 0, cost := 0, benefit := 0 }

/-- Score of an option, emerge/decision/simple.go:24-25. -/
def actionScore (a : Action α) : α := a.benefit / fmax a.cost 0.1

/-- `(*SimpleDecisionMaker).Decide`, emerge/decision/simple.go:14-37. -/
def decide' (state : State α) (options : List (Action α)) : Action α × α :=
  match options with
  | [] => (Action.maintain0, state.coherence)
  | o :: _ =>
    let best := options.foldl
      (fun (b : Action α × α) a => if actionScore a > b.2 then (a, actionScore a) else b)
      (o, -maxFloat)
    (best.1, fmin (fmax (best.2 / 2.0) 0) 1)

/-- Clamping of a rate as in `NewPhaseNudge`, `NewFrequencyLock`, `NewPulse`:
`math.Max(0, math.Min(1, rate))`, emerge/strategy/phase_nudge.go:18. -/
def clampRate (rate : α) : α := fmax 0 (fmin 1 rate)

/-- `(*PhaseNudge).Propose`, emerge/strategy/phase_nudge.go:23-40. -/
def phaseNudgePropose (rate : α) (current target : State α) (ctx : Context α) : Action α × α :=
  let diff := phaseDifference target.phase current.phase
  let adjustment := diff * rate
  ({ type := "phase_nudge", value := adjustment, cost := GoMath.abs adjustment * 2.0,
     benefit := (1 - GoMath.abs diff / piMul 1) * 1.5 },
   fmax 0.5 (1 - ctx.localCoherence))

/-- `(*FrequencyLock).Propose`, emerge/strategy/frequency_lock.go:23-42. -/
def frequencyLockPropose (syncRate : α) (current target : State α) (ctx : Context α) : Action α × α :=
  let diff := phaseDifference target.phase current.phase
  let adjustment := diff * syncRate
  ({ type := "frequency_lock", value := adjustment, cost := GoMath.abs adjustment * 3.0,
     benefit := ctx.localCoherence * 2.0 },
   ctx.localCoherence * syncRate)

/-- `(*EnergyAware).Propose`, emerge/strategy/energy_aware.go:23-49. The receiver's threshold is not used. -/
def energyAwarePropose (current target : State α) (ctx : Context α) : Action α × α :=
  let diff := phaseDifference target.phase current.phase
  if GoMath.abs diff < 0.1 then
    ({ type := "maintain", value := 0, cost := 0.1, benefit := ctx.stability }, 0.5)
  else
    let adjustment := diff * 0.1
    ({ type := "energy_save", value := adjustment, cost := fmax 0.5 (GoMath.abs adjustment),
       benefit := ctx.progress * 0.5 }, 0.3)

/-- `strategy.Pulse`, emerge/strategy/pulse.go:12-16; times are integers (nanoseconds). -/
structure Pulse (α : Type) where
  period : Int
  amplitude : α
  lastPulse : Int

/-- `NewPulse`, emerge/strategy/pulse.go:19-25, at time `now`. -/
def newPulse (period : Int) (amplitude : α) (now : Int) : Pulse α :=
  { period := period, amplitude := clampRate amplitude, lastPulse := now }

/-- `(*Pulse).Propose`, emerge/strategy/pulse.go:28-56, at time `now`; returns the updated receiver. -/
def Pulse.propose (s : Pulse α) (now : Int) (current target : State α) (ctx : Context α) :
    (Action α × α) × Pulse α :=
  if now - s.lastPulse < s.period then
    (({ type := "maintain", value := 0, cost := 0.1, benefit := ctx.stability * 0.5 }, 0.3), s)
  else
    let adjustment := phaseDifference target.phase current.phase * s.amplitude
    (({ type := "pulse", value := adjustment, cost := GoMath.abs adjustment * 4.0, benefit := 2.0 }, s.amplitude),
     { s with lastPulse := now })

/-- The strategies constructible by the package, other than the adaptive combinator. -/
inductive Strat (α : Type) where
  | phaseNudge (rate : α)
  | frequencyLock (syncRate : α)
  | energyAware (threshold : α)
  | pulse (p : Pulse α)

/-- Dynamic dispatch of `core.SyncStrategy.Propose` (emerge/core/strategy.go:5-12). -/
def Strat.propose (s : Strat α) (now : Int) (current target : State α) (ctx : Context α) :
    (Action α × α) × Strat α :=
  match s with
  | .phaseNudge r => (phaseNudgePropose r current target ctx, s)
  | .frequencyLock r => (frequencyLockPropose r current target ctx, s)
  | .energyAware _ => (energyAwarePropose current target ctx, s)
  | .pulse p => let r := p.propose now current target ctx; (r.1, .pulse r.2)

/-- The selector installed by `NewAdaptiveStrategy`, emerge/strategy/adaptive.go:16-24, for `len` strategies. -/
def defaultSelector (len : Nat) (ctx : Context α) : Int :=
  if ctx.stability > 0.7 then 0
  else if ctx.localCoherence > 0.5 then min 1 ((len : Int) - 1)
  else min 2 ((len : Int) - 1)

/-- `(*AdaptiveStrategy).Propose`, emerge/strategy/adaptive.go:35-47, over arbitrary strategies `β`
whose `Propose` is `run`. Indexing a slice out of range panics. -/
def adaptivePropose {β γ : Type} (strategies : List β) (selector : Context α → Int) (run : β → γ)
    (maintain : γ) (ctx : Context α) : Outcome γ :=
  if strategies.length = 0 then .ok maintain
  else
    let idx := selector ctx
    let idx := if idx < 0 ∨ idx ≥ strategies.length then 0 else idx
    if idx < 0 then .panic
    else match strategies[idx.toNat]? with
      | some s => .ok (run s)
      | none => .panic

/-- `(*WeightedManager).Blend`, emerge/goal/manager.go:20-42. -/
def blend (loc glob : State α) (weight : α) : State α :=
  let weight := if weight < 0 then 0 else if weight > 1 then 1 else weight
  let localInfluence := 1 - weight
  let globalInfluence := weight
  let phaseDiff := phaseDifference glob.phase loc.phase
  { phase := wrapPhase (loc.phase + phaseDiff * globalInfluence)
    frequency := loc.frequency
    coherence := loc.coherence * localInfluence + glob.coherence * globalInfluence }

end
end Verif
