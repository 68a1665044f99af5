import Verif.Model.Swarm

/-!
# The topologies of the test utilities: internal/testutil/emerge/testutil.go

The builders take the agents from `s.Agents()`, a Go map, and range over it; the lists below are the orders in which the
map is visited (`FullyConnectedTopology` visits it once more for every agent, possibly in another order each time).
Writes go through `a.Neighbors().Store` (`storeNeighbor`), i.e. to the `sync.Map` of the agent.
-/

set_option autoImplicit false

namespace Verif
open GoMath

section
variable {α : Type} [Zero α] [One α] [Add α] [Sub α] [Mul α] [Div α] [Neg α] [LT α] [LE α]
  [DecidableLT α] [DecidableLE α] [BEq α] [OfScientific α] [GoMath α]

/-- A sequence of `a.Neighbors().Store(b.ID, b)`. -/
def storeAll (h : Nat → Agent α) (calls : List (Nat × Nat)) : Nat → Agent α :=
  calls.foldl (fun h c => storeNeighbor h c.1 c.2) h

/-- The stores of `FullyConnectedTopology`, internal/testutil/emerge/testutil.go:88-94; `inner i` is the order of the
inner loop in the round `i` of the outer one. -/
def testFullCalls (h : Nat → Agent α) (agents : List Nat) (inner : Nat → List Nat) : List (Nat × Nat) :=
  agents.zipIdx.flatMap fun ai => (inner ai.2).filterMap fun b => if (h ai.1).id ≠ (h b).id then some (ai.1, b) else none

/-- The stores of `RingTopology`, internal/testutil/emerge/testutil.go:115-123. -/
def testRingCalls (agents : List Nat) : List (Nat × Nat) :=
  let n := agents.length
  agents.zipIdx.flatMap fun ai =>
    [(ai.1, agents.getD ((ai.2 + n - 1) % n) 0), (ai.1, agents.getD ((ai.2 + 1) % n) 0)]

/-- The stores of `StarTopology`, internal/testutil/emerge/testutil.go:143-157. -/
def testStarCalls (agents : List Nat) : List (Nat × Nat) :=
  let hub := agents.headD 0
  agents.zipIdx.flatMap fun ai =>
    if ai.2 = 0 then agents.zipIdx.filterMap fun bj => if bj.2 ≠ 0 then some (hub, bj.1) else none
    else [(ai.1, hub)]

/-- `FullyConnectedTopology`, internal/testutil/emerge/testutil.go:85-97. -/
def testFull (h : Nat → Agent α) (agents : List Nat) (inner : Nat → List Nat) : Option (Nat → Agent α) :=
  some (storeAll h (testFullCalls h agents inner))

/-- `RingTopology`, internal/testutil/emerge/testutil.go:101-126; `none` is the error. -/
def testRing (h : Nat → Agent α) (agents : List Nat) : Option (Nat → Agent α) :=
  if agents.length < 2 then none else some (storeAll h (testRingCalls agents))

/-- `StarTopology`, internal/testutil/emerge/testutil.go:130-160; `none` is the error. -/
def testStar (h : Nat → Agent α) (agents : List Nat) : Option (Nat → Agent α) :=
  if agents.length < 2 then none else some (storeAll h (testStarCalls agents))

end
end Verif
