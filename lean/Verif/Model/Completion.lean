import Verif.Model.Neighbors

/-!
# Model of `emerge/completion/engine.go`
-/

set_option autoImplicit false

namespace Verif
open GoMath

section
variable {α : Type} [Zero α] [One α] [Add α] [Sub α] [Mul α] [Div α] [Neg α] [LT α] [LE α]
  [DecidableLT α] [DecidableLE α] [BEq α] [OfScientific α] [GoMath α]

/-- `completion.Engine`, emerge/completion/engine.go:13-17. Templates are a map from names to patterns; nil templates are
not modelled (their distance is `MaxFloat64`, so they are never chosen). -/
structure Engine (α : Type) where
  templates : List (String × TargetPattern α)
  matchThreshold : α

/-- The map `Filled`, emerge/completion/engine.go:72, with its four possible keys; a later gap of the same type overwrites
the entry. -/
structure Filled (α : Type) where
  phase : Option α
  frequency : Option Int
  coherenceBoost : Option α
  waveform : Option (List α)

/-- The empty map. -/
def Filled.empty : Filled α := ⟨none, none, none, none⟩

/-- `completion.CompletedPattern`, emerge/completion/engine.go:69-73; the field `Template` is never set or read. -/
structure CompletedPattern (α : Type) where
  base : TargetPattern α
  filled : Filled α

/-- `NewEngine`, emerge/completion/engine.go:20-25. -/
def Engine.new : Engine α := { templates := [], matchThreshold := 0.7 }

/-- `(*Engine).AddTemplate`, emerge/completion/engine.go:180-184. -/
def Engine.addTemplate (e : Engine α) (name : String) (p : TargetPattern α) : Engine α :=
  { e with templates :=
      if e.templates.any (·.1 == name) then e.templates.map fun q => if q.1 == name then (name, p) else q
      else e.templates ++ [(name, p)] }

/-- One iteration of the search, emerge/completion/engine.go:99-105: the best template and distance so far. -/
def templateStep (current : TargetPattern α) (threshold : α) (best : Option (TargetPattern α) × α)
    (template : TargetPattern α) : Option (TargetPattern α) × α :=
  let distance := patternDistance (some current) (some template)
  if distance < best.2 ∧ distance < threshold then (some template, distance) else best

/-- `(*Engine).findBestTemplate`, emerge/completion/engine.go:92-108, visiting the templates in the given order. -/
def findBestTemplate (threshold : α) (templates : List (TargetPattern α)) (current : TargetPattern α) :
    Option (TargetPattern α) :=
  (templates.foldl (templateStep current threshold) (none, maxFloat)).1

/-- `(*Engine).blendPhase`, emerge/completion/engine.go:140-143. -/
def blendPhase (current template weight : α) : α := wrapPhase (current + phaseDifference template current * weight)

/-- `(*Engine).blendFrequency`, emerge/completion/engine.go:146-149. -/
def blendFrequency (current template : Int) (weight : α) : Int :=
  current + toInt ((ofInt (template - current) : α) * weight)

/-- One sample of the morph, emerge/completion/engine.go:167-174; `none` would be an index out of range. -/
def morphAt (current template : List α) (weight : α) (maxLen i : Nat) : Option α :=
  match current[i * current.length / maxLen]?, template[i * template.length / maxLen]? with
  | some c, some t => some (c * (1 - weight) + t * weight)
  | _, _ => none

/-- `(*Engine).morphWaveform`, emerge/completion/engine.go:152-177. -/
def morphWaveform (current template : List α) (weight : α) : Outcome (List α) :=
  if current.length = 0 then .ok template
  else if template.length = 0 then .ok current
  else
    let maxLen := if template.length > current.length then template.length else current.length
    match (List.range maxLen).mapM (morphAt current template weight maxLen) with
    | some l => .ok l
    | none => .panic

/-- One iteration of `interpolatePattern`, emerge/completion/engine.go:117-134. -/
def interpolateStep (f : Filled α) (gap : PatternGap α) : Filled α :=
  let weight := fmin gap.severity 0.5
  match gap.type with
  | .phase => { f with phase := some (wrapPhase (gap.current + phaseDifference gap.target gap.current * weight)) }
  | .frequency => { f with frequency := some (toInt (gap.current + (gap.target - gap.current) * weight)) }
  | .coherence => { f with coherenceBoost := some ((gap.target - gap.current) * weight) }
  | .waveform => f

/-- `(*Engine).interpolatePattern`, emerge/completion/engine.go:111-137. -/
def interpolatePattern (current : TargetPattern α) (gaps : List (PatternGap α)) : CompletedPattern α :=
  { base := current, filled := gaps.foldl interpolateStep Filled.empty }

/-- One iteration of the template branch of `CompletePattern`, emerge/completion/engine.go:43-63. -/
def templateFill (current template : TargetPattern α) (f : Filled α) (gap : PatternGap α) : Outcome (Filled α) :=
  match gap.type with
  | .phase => .ok { f with phase := some (blendPhase current.phase template.phase gap.severity) }
  | .frequency => .ok { f with frequency := some (blendFrequency current.frequency template.frequency gap.severity) }
  | .coherence => .ok { f with coherenceBoost := some (template.coherence * gap.severity) }
  | .waveform =>
    if template.waveform.length > 0 then
      match morphWaveform current.waveform template.waveform gap.severity with
      | .ok w => .ok { f with waveform := some w }
      | .panic => .panic
    else .ok f

/-- The loop over the gaps. -/
def templateFills (current template : TargetPattern α) : List (PatternGap α) → Filled α → Outcome (Filled α)
  | [], f => .ok f
  | g :: gs, f =>
    match templateFill current template f g with
    | .ok f => templateFills current template gs f
    | .panic => .panic

/-- `(*Engine).CompletePattern`, emerge/completion/engine.go:28-66; `order` lists the templates in the order in which Go
ranges over the map. -/
def Engine.completePattern (e : Engine α) (order : List (String × TargetPattern α) → List (String × TargetPattern α))
    (current : TargetPattern α) (gaps : List (PatternGap α)) : Outcome (CompletedPattern α) :=
  match findBestTemplate e.matchThreshold ((order e.templates).map Prod.snd) current with
  | none => .ok (interpolatePattern current gaps)
  | some template =>
    match templateFills current template gaps Filled.empty with
    | .ok f => .ok { base := current, filled := f }
    | .panic => .panic

/-- `(*CompletedPattern).GetPhaseAdjustment`, emerge/completion/engine.go:76-81. -/
def CompletedPattern.phaseAdjustment (cp : CompletedPattern α) : α :=
  match cp.filled.phase with
  | some p => phaseDifference p cp.base.phase
  | none => 0

/-- `(*CompletedPattern).GetFrequencyAdjustment`, emerge/completion/engine.go:84-89. -/
def CompletedPattern.frequencyAdjustment (cp : CompletedPattern α) : Int :=
  match cp.filled.frequency with
  | some f => f - cp.base.frequency
  | none => 0

/-- The result of `GenerateSineWave(100)`, emerge/core/pattern.go:92-99, used at emerge/completion/engine.go:194. -/
def sineWave100 : List α :=
  (List.range 100).map fun (i : Nat) => sin (ofInt (i : Int) * 2.0 * piMul 1 / ofInt 100)

/-- `(*Engine).LoadDefaultTemplates`, emerge/completion/engine.go:187-217. -/
def Engine.loadDefaultTemplates (e : Engine α) : Engine α :=
  ((e.addTemplate "perfect_sync"
      { phase := 0, frequency := 250000000, amplitude := 1, coherence := 1, waveform := sineWave100, stability := 1 }
    ).addTemplate "partial_sync"
      { phase := 0, frequency := 250000000, amplitude := 0.8, coherence := 0.65, waveform := sineWave100
        stability := 0.7 }
    ).addTemplate "recovery"
      { phase := 0, frequency := 200000000, amplitude := 0.6, coherence := 0.5, waveform := sineWave100
        stability := 0.5 }

end
end Verif
