import Verif.Model.Core

/-!
# Model of `emerge/agent/neighbor_storage.go` and of `sync.Map` as the agents use it
-/

set_option autoImplicit false

namespace Verif

/-- `agent.NeighborStorage`, emerge/agent/neighbor_storage.go:10-17. Pointers to agents are values of `β`, the nil
pointer being `default`. Slice accesses are `getD`/`set`; the proved invariant `count ≤ capacity = len` shows that
every index is in range, so that Go does not panic. Each method holds the lock for its whole body. -/
structure NeighborStorage (β : Type) where
  neighbors : List β
  ids : List String
  count : Nat
  capacity : Nat

variable {β : Type} [Inhabited β]

/-- `NewNeighborStorage`, emerge/agent/neighbor_storage.go:20-29. -/
def NeighborStorage.new (capacity : Int) : NeighborStorage β :=
  let capacity := if capacity ≤ 0 then 20 else capacity
  { neighbors := List.replicate capacity.toNat default
    ids := List.replicate capacity.toNat ""
    count := 0
    capacity := capacity.toNat }

/-- The search loop common to Store, Load and Delete: the first index below `count` holding `id`
(emerge/agent/neighbor_storage.go:38-43, 63-67, 77-78). -/
def NeighborStorage.find (ns : NeighborStorage β) (id : String) : Option Nat :=
  (List.range ns.count).find? fun i => ns.ids.getD i "" == id

/-- `(*NeighborStorage).Store`, emerge/agent/neighbor_storage.go:32-55. -/
def NeighborStorage.store (ns : NeighborStorage β) (id : String) (agent : β) : Bool × NeighborStorage β :=
  match ns.find id with
  | some i => (true, { ns with neighbors := ns.neighbors.set i agent })
  | none =>
    if ns.count < ns.capacity then
      (true, { ns with ids := ns.ids.set ns.count id, neighbors := ns.neighbors.set ns.count agent,
                       count := ns.count + 1 })
    else (false, ns)

/-- `(*NeighborStorage).Load`, emerge/agent/neighbor_storage.go:58-69; `none` is `(nil, false)`. -/
def NeighborStorage.load (ns : NeighborStorage β) (id : String) : Option β :=
  (ns.find id).map fun i => ns.neighbors.getD i default

/-- `(*NeighborStorage).Delete`, emerge/agent/neighbor_storage.go:72-92. -/
def NeighborStorage.delete (ns : NeighborStorage β) (id : String) : NeighborStorage β :=
  match ns.find id with
  | none => ns
  | some i =>
    let lastIdx := ns.count - 1
    let ids := if i < lastIdx then ns.ids.set i (ns.ids.getD lastIdx "") else ns.ids
    let neighbors := if i < lastIdx then ns.neighbors.set i (ns.neighbors.getD lastIdx default) else ns.neighbors
    { ns with ids := ids.set lastIdx "", neighbors := neighbors.set lastIdx default, count := ns.count - 1 }

/-- The pairs visited by `(*NeighborStorage).Range`, emerge/agent/neighbor_storage.go:95-105, with a callback that
returns false (stop) on the pairs where `stop` holds; the last pair visited is the first such one. -/
def NeighborStorage.range (ns : NeighborStorage β) (stop : String × β → Bool) : List (String × β) :=
  let rec go : List (String × β) → List (String × β)
    | [] => []
    | p :: ps => if stop p then [p] else p :: go ps
  go ((List.range ns.count).map fun i => (ns.ids.getD i "", ns.neighbors.getD i default))

/-- `(*NeighborStorage).Count`, emerge/agent/neighbor_storage.go:108-110. -/
def NeighborStorage.countOf (ns : NeighborStorage β) : Nat := ns.count

/-- `(*NeighborStorage).All`, emerge/agent/neighbor_storage.go:113-125. -/
def NeighborStorage.all (ns : NeighborStorage β) : List β := ns.neighbors.take ns.count

/-- `(*NeighborStorage).Clear`, emerge/agent/neighbor_storage.go:128-138. -/
def NeighborStorage.clear (ns : NeighborStorage β) : NeighborStorage β :=
  { ns with
    ids := List.replicate ns.count "" ++ ns.ids.drop ns.count
    neighbors := List.replicate ns.count default ++ ns.neighbors.drop ns.count
    count := 0 }

/-- A `sync.Map` from IDs to agents, as an association list with distinct keys; the order stands for the unspecified
order of `Range`. -/
abbrev SyncMap (β : Type) := List (String × β)

/-- `Store`: replaces the entry of an existing key, otherwise adds one. -/
def SyncMap.store (m : SyncMap β) (id : String) (v : β) : SyncMap β :=
  if m.any (·.1 == id) then m.map fun p => if p.1 == id then (id, v) else p else m ++ [(id, v)]

/-- `Load`. -/
def SyncMap.load (m : SyncMap β) (id : String) : Option β := (m.find? (·.1 == id)).map (·.2)

/-- `Delete`. -/
def SyncMap.delete (m : SyncMap β) (id : String) : SyncMap β := m.filter fun p => !(p.1 == id)

end Verif
