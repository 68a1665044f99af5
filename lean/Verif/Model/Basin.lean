import Verif.Model.Core

/-!
# Attractor basins

`internal/emerge/basin.go`.
-/

set_option autoImplicit false

namespace Verif
open GoMath

section
variable {α : Type} [Zero α] [One α] [Add α] [Sub α] [Mul α] [Div α] [Neg α] [LT α] [LE α]
  [DecidableLT α] [DecidableLE α] [BEq α] [OfScientific α] [GoMath α]

/-- `AttractorBasin`, internal/emerge/basin.go:12-16. -/
structure Basin (α : Type) where
  target : State α
  strength : α
  radius : α

/-- `NewAttractorBasin`, internal/emerge/basin.go:19-32. -/
def Basin.new (target : State α) (strength radius : α) : Basin α :=
  { target := target, strength := if strength < 0 then 0 else if strength > 1 then 1 else strength, radius := radius }

/-- `DistanceToTarget`, internal/emerge/basin.go:40-46. -/
def Basin.distance (b : Basin α) (s : State α) : α :=
  GoMath.abs (remainder (s.phase - b.target.phase) (piMul 2))

/-- `IsInBasin`, internal/emerge/basin.go:35-37. -/
def Basin.contains (b : Basin α) (s : State α) : Bool := decide (b.distance s ≤ b.radius)

/-- `AttractionForce`, internal/emerge/basin.go:51-69. -/
def Basin.force (b : Basin α) (s : State α) : α :=
  if b.distance s > b.radius then 0
  else if s.phase < 0 ∧ b.target.phase > 0 then b.strength * (1 - b.distance s / b.radius) * 2.0
  else b.strength * (1 - b.distance s / b.radius)

/-- The frequency alignment of `ConvergenceRate`, internal/emerge/basin.go:86-91. -/
def Basin.alignment (b : Basin α) (s : State α) : α :=
  let freqDiff : α := GoMath.abs (ofInt (s.frequency - b.target.frequency))
  let maxFreq : α := fmax (ofInt s.frequency) (ofInt b.target.frequency)
  if maxFreq > 0 then 1 - freqDiff / maxFreq else 1

/-- `ConvergenceRate`, internal/emerge/basin.go:72-94. -/
def Basin.rate (b : Basin α) (s : State α) : α :=
  if b.radius == 0 then 0
  else if b.distance s ≥ b.radius then 0
  else b.force s * b.alignment s

/-- `OptimalAdjustment`, internal/emerge/basin.go:97-112. -/
def Basin.adjustment (b : Basin α) (s : State α) : α :=
  if b.force s == 0 then phaseDifference b.target.phase s.phase * 0.01
  else phaseDifference b.target.phase s.phase * b.force s

end
end Verif
