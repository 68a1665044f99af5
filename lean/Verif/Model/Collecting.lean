import Verif.Model.Batching

/-!
# Model of the figures about batches that are being collected
(`simulations/emerge/simulation/batch_manager.go`, `simulations/emerge/simulation/simulation.go`, `simulations/display/display.go`)

`PendingCount`, simulations/emerge/simulation/batch_manager.go:162-166, is left out: the slice `current` whose length it returns is never appended to.
-/

set_option autoImplicit false

namespace Verif

/-- The field `CurrentBatchSize` of a snapshot, simulations/emerge/simulation/simulation.go:339-340: the number of batches in the queue. The metrics panel
shows it as "Collecting: %d tasks" if it is positive, simulations/display/display.go:1262-1265. -/
def BatchSys.shownCollecting (s : BatchSys) : Nat := s.queue.length

/-- `(*BatchManager).CurrentBatchSize`, simulations/emerge/simulation/batch_manager.go:169-172. -/
def BatchSys.currentBatchSize (s : BatchSys) : Nat := s.queue.length * 10

end Verif
