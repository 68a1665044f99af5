import Verif.Model.Core

/-!
# Temporal patterns

`emerge/monitoring/patterns.go`; `internal/emerge/pattern.go` is a copy that differs only in comments. Sums and differences of durations
are unbounded integers (Go wraps at 2⁶³).
-/

set_option autoImplicit false

namespace Verif
open GoMath

section
variable {α : Type} [Zero α] [One α] [Add α] [Sub α] [Mul α] [Div α] [Neg α] [LT α] [LE α]
  [DecidableLT α] [DecidableLE α] [BEq α] [OfScientific α] [GoMath α]

/-- `monitoring.TargetPattern`, emerge/monitoring/patterns.go:12-18 (the same code: internal/emerge/pattern.go:13-19). -/
structure Temporal (α : Type) where
  phases : List α
  frequencies : List Int
  amplitude : α
  period : Int
  confidence : α

/-- `monitoring.PatternGap`, emerge/monitoring/patterns.go:36-41 (the same code: internal/emerge/pattern.go:37-42); `Predicted` is never set or read. -/
structure TemporalGap where
  startIdx : Int
  endIdx : Int
  duration : Int
  deriving DecidableEq, Repr

/-- `calculateAmplitude`, emerge/monitoring/patterns.go:192-218 (the same code: internal/emerge/pattern.go:193-219). -/
def calculateAmplitude (phases : List α) : α :=
  if phases.length < 2 then 0
  else
    let normalized := phases.map wrapPhase
    let mean := normalized.foldl (fun m p => m + p) 0 / ofInt (normalized.length : Int)
    let variance := normalized.foldl (fun v p => v + (p - mean) * (p - mean)) 0 / ofInt (normalized.length : Int)
    sqrt variance

/-- `calculatePeriod`, emerge/monitoring/patterns.go:220-232 (the same code: internal/emerge/pattern.go:221-233). -/
def calculatePeriod (frequencies : List Int) : Int :=
  if frequencies.length = 0 then 0
  else (frequencies.foldl (fun t f => t + f) 0).tdiv (frequencies.length : Int)

/-- `NewTargetPattern`, emerge/monitoring/patterns.go:21-32 (the same code: internal/emerge/pattern.go:22-33). -/
def Temporal.new (phases : List α) (frequencies : List Int) : Temporal α :=
  { phases := phases, frequencies := frequencies, amplitude := calculateAmplitude phases
    period := calculatePeriod frequencies, confidence := 1 }

/-- The loop of `Detect`, emerge/monitoring/patterns.go:48-60 (the same code: internal/emerge/pattern.go:49-61), with `i` the index of the first phase of the list; `none` is the panic
of the index expression of line 56. -/
def detectFrom (frequencies : List Int) : Nat → List α → Option (List TemporalGap)
  | i, a :: b :: rest =>
    if GoMath.abs (phaseDifference b a) > piMul (1 / 2) then
      match frequencies[i]? with
      | none => none
      | some f => (detectFrom frequencies (i + 1) (b :: rest)).map fun gaps => { startIdx := i, endIdx := i + 1, duration := f } :: gaps
    else detectFrom frequencies (i + 1) (b :: rest)
  | _, _ => some []

/-- `Detect`, emerge/monitoring/patterns.go:44-63 (the same code: internal/emerge/pattern.go:45-64). -/
def Temporal.detect (p : Temporal α) : Outcome (List TemporalGap) :=
  match detectFrom p.frequencies 0 p.phases with
  | none => .panic
  | some gaps => .ok gaps

/-- `Complete`, emerge/monitoring/patterns.go:66-89 (the same code: internal/emerge/pattern.go:67-90); `none` is the nil slice. -/
def Temporal.complete (p : Temporal α) (gap : TemporalGap) : Option (List α) :=
  if gap.startIdx < 0 ∨ gap.endIdx ≥ (p.phases.length : Int) ∨ gap.startIdx ≥ gap.endIdx then none
  else
    let startPhase := p.phases.getD gap.startIdx.toNat 0
    let endPhase := p.phases.getD gap.endIdx.toNat 0
    let steps := gap.endIdx - gap.startIdx - 1
    if steps ≤ 0 then some []
    else
      let diff := phaseDifference endPhase startPhase
      some ((List.range steps.toNat).map fun (i : Nat) =>
        wrapPhase (startPhase + diff * (ofInt ((i : Int) + 1) / ofInt (steps + 1))))

/-- `phaseCorrelation`, emerge/monitoring/patterns.go:234-252 (the same code: internal/emerge/pattern.go:235-253). -/
def phaseCorrelation (phases1 phases2 : List α) : α :=
  if phases1.length ≠ phases2.length then 0
  else if phases1.length = 0 then 0
  else (phases1.zip phases2).foldl (fun s (x : α × α) => s + (1 - GoMath.abs (phaseDifference x.1 x.2) / piMul 1)) 0 /
    ofInt (phases1.length : Int)

/-- The scale factor of `Similarity`, emerge/monitoring/patterns.go:108-121 (the same code: internal/emerge/pattern.go:109-122). -/
def scaleFactor (phases1 phases2 : List α) : α :=
  if phases1.length = phases2.length ∧ phases1.length > 0 then
    let maxP := phases1.foldl (fun m x => fmax m (GoMath.abs x)) 0
    let maxO := phases2.foldl (fun m x => fmax m (GoMath.abs x)) 0
    if maxP > 0 ∧ maxO > 0 then
      let ratio := fmax (maxP / maxO) (maxO / maxP)
      if ratio > 100.0 then 1 / fmin (ratio / 100.0) 10.0 else 1
    else 1
  else 1

/-- `Similarity`, emerge/monitoring/patterns.go:93-128 (the same code: internal/emerge/pattern.go:94-129); `none` is a nil pointer. -/
def Temporal.similarity (p : Temporal α) (other : Option (Temporal α)) : α :=
  match other with
  | none => 0
  | some o =>
    if p.phases.length = 0 ∨ o.phases.length = 0 then 0
    else
      let ampSim := 1 - fmin (GoMath.abs (p.amplitude - o.amplitude) / fmax p.amplitude o.amplitude) 1
      let periodSim := 1 - fmin (GoMath.abs (ofInt (p.period - o.period)) / ofInt (max p.period o.period)) 1
      let phaseSim := phaseCorrelation p.phases o.phases * scaleFactor p.phases o.phases
      ampSim * 0.3 + periodSim * 0.3 + phaseSim * 0.4

/-- `PatternTemplate`, emerge/monitoring/patterns.go:132-137 (the same code: internal/emerge/pattern.go:133-138). -/
structure Template (α : Type) where
  base : Temporal α
  variations : List (Temporal α)
  tolerance : α

/-- `Matches`, emerge/monitoring/patterns.go:140-155 (the same code: internal/emerge/pattern.go:141-156). -/
def Template.isMatch (t : Template α) (pattern : Option (Temporal α)) : Bool :=
  if t.base.similarity pattern ≥ 1 - t.tolerance then true
  else t.variations.any fun v => decide (v.similarity pattern ≥ 1 - t.tolerance)

/-- The loop body of `Identify`, emerge/monitoring/patterns.go:179-185 (the same code: internal/emerge/pattern.go:180-186). -/
def identifyStep (pattern : Option (Temporal α)) (best : String × α) (t : String × Template α) : String × α :=
  if t.2.base.similarity pattern > best.2 then (t.1, t.2.base.similarity pattern) else best

/-- `Identify`, emerge/monitoring/patterns.go:175-188 (the same code: internal/emerge/pattern.go:176-189), on the templates of a library in the order in which Go ranges over the map. -/
def identify (templates : List (String × Template α)) (pattern : Option (Temporal α)) : String × α :=
  templates.foldl (identifyStep pattern) ("", 0)

end
end Verif
