import Verif.Num.GoMath

/-!
# Model of `emerge/core`: phases, coherence, patterns, states
-/

set_option autoImplicit false

namespace Verif
open GoMath

/-- Outcome of a Go call that may panic. -/
inductive Outcome (β : Type) where
  | ok (b : β)
  | panic
  deriving DecidableEq

section
variable {α : Type} [Zero α] [One α] [Add α] [Sub α] [Mul α] [Div α] [Neg α] [LT α] [LE α]
  [DecidableLT α] [DecidableLE α] [BEq α] [OfScientific α] [GoMath α]

/-- `core.WrapPhase`, emerge/core/phase.go:6-9. -/
def wrapPhase (phase : α) : α :=
  mod (mod phase (piMul 2) + piMul 2) (piMul 2)

/-- `core.PhaseDifference`, emerge/core/phase.go:13-33, with both hard-wired special cases. -/
def phaseDifference (phase1 phase2 : α) : α :=
  let diff := phase1 - phase2
  let result := atan2 (sin diff) (cos diff)
  let eps : α := 1e-10
  if GoMath.abs phase1 < eps ∧ GoMath.abs (phase2 - piMul (3 / 2)) < eps then piMul (-1 / 2)
  else if GoMath.abs (phase1 - piMul (3 / 2)) < eps ∧ GoMath.abs phase2 < eps then piMul (1 / 2)
  else result

/-- `core.MeasureCoherence`, emerge/core/phase.go:36-51. The loop is a left fold in slice order. -/
def measureCoherence (phases : List α) : α :=
  if phases.length = 0 then 0
  else
    let sums := phases.foldl (fun (s : α × α) p => (s.1 + cos p, s.2 + sin p)) (0, 0)
    sqrt (sums.1 * sums.1 + sums.2 * sums.2) / ofInt phases.length

/-- `core.MeasureCoherenceWeighted`, emerge/core/phase.go:54-80. `List.zip` truncates to the shorter length, which is
the loop bound `minLen` (lines 63-68). -/
def measureCoherenceWeighted (phases weights : List α) : α :=
  if phases.length = 0 ∨ weights.length = 0 then 0
  else
    let sums := (phases.zip weights).foldl
      (fun (s : α × α × α) pw => (s.1 + pw.2 * cos pw.1, s.2.1 + pw.2 * sin pw.1, s.2.2 + pw.2)) (0, 0, 0)
    if sums.2.2 == 0 then 0
    else sqrt (sums.1 * sums.1 + sums.2.1 * sums.2.1) / sums.2.2

/-- `core.TargetPattern`, emerge/core/pattern.go:9-16. -/
structure TargetPattern (α : Type) where
  phase : α
  frequency : Int
  amplitude : α
  coherence : α
  waveform : List α
  stability : α

/-- Type of a gap; the Go code uses the strings "phase", "frequency", "coherence" and "waveform" (the
last is never produced by `IdentifyGaps`); gaps with other strings are ignored by every reader. -/
inductive GapType where
  | phase | frequency | coherence | waveform
  deriving DecidableEq, Repr

/-- `core.PatternGap`, emerge/core/pattern.go:19-24. -/
structure PatternGap (α : Type) where
  type : GapType
  current : α
  target : α
  severity : α

/-- `core.PatternDistance`, emerge/core/pattern.go:27-48; `none` is a nil pointer. -/
def patternDistance (current target : Option (TargetPattern α)) : α :=
  match current, target with
  | some c, some t =>
    let phaseDiff := GoMath.abs (phaseDifference t.phase c.phase)
    let phaseDistance := phaseDiff / piMul 1
    let freqDistance : α :=
      if t.frequency > 0 then
        fmin (GoMath.abs (ofInt (c.frequency - t.frequency)) / ofInt t.frequency) 1
      else 0
    let coherenceDistance := GoMath.abs (t.coherence - c.coherence)
    0.4 * phaseDistance + 0.3 * freqDistance + 0.3 * coherenceDistance
  | _, _ => maxFloat

/-- `core.IdentifyGaps`, emerge/core/pattern.go:51-89, on non-nil patterns. -/
def identifyGaps' (c t : TargetPattern α) : List (PatternGap α) :=
  let phaseDiff := GoMath.abs (phaseDifference t.phase c.phase)
  let g1 := if phaseDiff > 0.1 then [⟨.phase, c.phase, t.phase, phaseDiff / piMul 1⟩] else []
  let freqRatio : α := ofInt c.frequency / ofInt t.frequency
  let g2 := if t.frequency > 0 ∧ c.frequency > 0 ∧ GoMath.abs (freqRatio - 1) > 0.05
    then [⟨.frequency, ofInt c.frequency, ofInt t.frequency, GoMath.abs (freqRatio - 1)⟩] else []
  let g3 := if c.coherence < t.coherence - 0.05
    then [⟨.coherence, c.coherence, t.coherence, t.coherence - c.coherence⟩] else []
  g1 ++ g2 ++ g3

/-- `core.IdentifyGaps`; unlike `PatternDistance` it dereferences its arguments without a nil check, so nil panics. -/
def identifyGaps (current target : Option (TargetPattern α)) : Outcome (List (PatternGap α)) :=
  match current, target with
  | some c, some t => .ok (identifyGaps' c t)
  | _, _ => .panic

/-- `core.GenerateSineWave`, emerge/core/pattern.go:92-99. A negative length panics (`make`). -/
def generateSineWave (points : Int) : Outcome (List α) :=
  if points < 0 then .panic
  else .ok ((List.range points.toNat).map fun (i : Nat) =>
    sin (ofInt (i : Int) * 2.0 * piMul 1 / ofInt points))

/-- `core.State`, emerge/core/state.go:13-17. Durations are integers (nanoseconds). -/
structure State (α : Type) where
  phase : α
  frequency : Int
  coherence : α

/-- Validation messages of `State.Validate`, in the order of the code. -/
inductive StateErr where
  | frequencyNotPositive | coherenceNaN | coherenceRange | phaseNaN | phaseInf
  deriving DecidableEq, Repr

/-- `(*State).Validate`, emerge/core/state.go:20-59; the empty list is a nil error. -/
def State.validate (s : State α) : List StateErr :=
  (if s.frequency ≤ 0 then [.frequencyNotPositive] else []) ++
  (if isNaN s.coherence then [.coherenceNaN]
   else if s.coherence < 0 ∨ s.coherence > 1 then [.coherenceRange] else []) ++
  (if isNaN s.phase then [.phaseNaN] else []) ++
  (if isInf s.phase then [.phaseInf] else [])

/-- `for s.Phase < 0 { s.Phase += 2*math.Pi }`, emerge/core/state.go:84-86, running at most `fuel` iterations;
`none` means the loop is still running. -/
def loopUp : Nat → α → Option α
  | 0, p => if p < 0 then none else some p
  | n + 1, p => if p < 0 then loopUp n (p + piMul 2) else some p

/-- `for s.Phase >= 2*math.Pi { s.Phase -= 2*math.Pi }`, emerge/core/state.go:87-89. -/
def loopDown : Nat → α → Option α
  | 0, p => if p ≥ piMul 2 then none else some p
  | n + 1, p => if p ≥ piMul 2 then loopDown n (p - piMul 2) else some p

/-- `(*State).normalize`, emerge/core/state.go:81-105. `fuel` bounds each phase loop; `none` means that a loop has not
exited within `fuel` iterations. -/
def State.normalize (fuel : Nat) (s : State α) : Option (State α) :=
  let phase :=
    if !isNaN s.phase && !isInf s.phase then (loopUp fuel s.phase).bind (loopDown fuel) else some s.phase
  phase.map fun p =>
    { phase := p
      coherence :=
        if !isNaN s.coherence then
          if s.coherence < 0 then 0 else if s.coherence > 1 then 1 else s.coherence
        else s.coherence
      frequency := if s.frequency ≤ 0 then 100000000 else s.frequency }

/-- `(*State).NormalizeAndValidate`, emerge/core/state.go:62-78: returns the mutated state and the error list. -/
def State.normalizeAndValidate (fuel : Nat) (s : State α) : Option (State α × List StateErr) :=
  if s.validate ≠ [] then
    (s.normalize fuel).map fun s' => (s', s'.validate)
  else
    (s.normalize fuel).map fun s' => (s', [])

end
end Verif
