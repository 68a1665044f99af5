import Verif.Num.GoMath

/-!
# Grading of results: `internal/analysis/quality.go`, `internal/analysis/diagnostics.go`

The environment variable `EMOJI` is a parameter. The summary of `Diagnose` is represented by its kind; the numbers printed in it are left out.
-/

set_option autoImplicit false

namespace Verif

section
variable {α : Type} [Zero α] [One α] [Add α] [Sub α] [Mul α] [Div α] [Neg α] [LT α] [LE α]
  [DecidableLT α] [DecidableLE α] [BEq α] [OfScientific α] [GoMath α]

/-- `InterpretCoherenceLevel`, internal/analysis/quality.go:82-95. -/
def interpretCoherenceLevel (coherence : α) : String :=
  if coherence < 0.2 then "Very Low"
  else if coherence < 0.4 then "Low"
  else if coherence < 0.6 then "Moderate"
  else if coherence < 0.8 then "Good"
  else "Excellent"

/-- `describeSyncMode`, internal/analysis/quality.go:21-49. -/
def describeSyncMode (coherence : α) (useEmoji : Bool) : String :=
  if coherence < 0.2 then if useEmoji then "(🌪️  Chaos - no coordination)" else "(Chaos - no coordination)"
  else if coherence < 0.4 then if useEmoji then "(🌊 Groups forming - multiple rhythms)" else "(Groups forming - multiple rhythms)"
  else if coherence < 0.6 then if useEmoji then "(⚡ Partial coordination - groups merging)" else "(Partial coordination - groups merging)"
  else if coherence < 0.8 then if useEmoji then "(🎵 Good sync - single dominant rhythm)" else "(Good sync - single dominant rhythm)"
  else if useEmoji then "(✨ Excellent sync - unified rhythm)" else "(Excellent sync - unified rhythm)"

/-- `describeBatchMode`, internal/analysis/quality.go:51-79. -/
def describeBatchMode (coherence : α) (useEmoji : Bool) : String :=
  if coherence < 0.2 then if useEmoji then "(🌪️  Chaos - no batching)" else "(Chaos - no batching)"
  else if coherence < 0.4 then if useEmoji then "(🌊 Weak batching emerging)" else "(Weak batching emerging)"
  else if coherence < 0.6 then if useEmoji then "(⚡ Moderate batching)" else "(Moderate batching)"
  else if coherence < 0.8 then if useEmoji then "(📦 Good batching)" else "(Good batching)"
  else if useEmoji then "(🚀 Excellent batching!)" else "(Excellent batching!)"

/-- `DescribeSyncQuality`, internal/analysis/quality.go:8-19. -/
def describeSyncQuality (coherence : α) (mode : String) (useEmoji : Bool) : String :=
  if mode = "sync" then describeSyncMode coherence useEmoji
  else if mode = "batch" then describeBatchMode coherence useEmoji
  else describeSyncMode coherence useEmoji

/-- `RunStats`, internal/analysis/diagnostics.go:10-16. -/
structure RunStats (α : Type) where
  initial : α
  final : α
  iter : Int
  maxIter : Int
  stuckCount : Int

/-- The kinds of summary of `Diagnose`. -/
inductive Diagnosis where
  | success | stuck | minimal | close | failed
  deriving DecidableEq

/-- `Diagnose`, internal/analysis/diagnostics.go:19-99. -/
def diagnose (s : RunStats α) (target : α) (mode : String) : Diagnosis × List String :=
  if s.final ≥ target then (.success, [])
  else
    let gap := GoMath.abs (target - s.final)
    let improvement := s.final - s.initial
    if s.stuckCount > s.maxIter.tdiv 3 then
      (.stuck, ["Increase swarm size (more agents = more pathways)", "Reduce target coherence (try 0.6-0.7)", "Adjust frequency to 200-300ms"] ++
        if mode = "batch" then ["Check network topology (ensure sufficient connections)", "Consider partial sync (0.65-0.75) for load spreading"] else [])
    else if improvement < 0.1 then
      (.minimal, ["Check agent connectivity (isolated agents?)", "Increase influence strength", "Reduce stubbornness parameter"])
    else if gap < 0.1 then (.close, ["Increase iterations (more time to converge)", "Fine-tune coupling strength"])
    else
      (.failed, ["Start with smaller swarm (5-10 agents)", "Lower target to 0.5-0.6", "Increase frequency to 300-500ms",
        "Check for competing attractors"])

/-- `AnalyzeConvergenceRate`, internal/analysis/diagnostics.go:102-115. -/
def analyzeConvergenceRate (α : Type) [Zero α] [One α] [Add α] [Sub α] [Mul α] [Div α] [Neg α] [LT α] [LE α]
    [DecidableLT α] [DecidableLE α] [BEq α] [OfScientific α] [GoMath α] (iterations maxIterations : Int) : String :=
  let ratio : α := GoMath.ofInt iterations / GoMath.ofInt maxIterations
  if ratio < 0.3 then "Fast convergence"
  else if ratio < 0.6 then "Normal convergence"
  else if ratio < 0.9 then "Slow convergence"
  else "Very slow convergence"

end
end Verif
