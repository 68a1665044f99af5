import Mathlib.Data.Finset.Card

/-!
# Specification: a finite map from IDs with a fixed capacity
-/

set_option autoImplicit false

namespace Verif.Spec

/-- The set of IDs present, their values, and the largest number of IDs allowed. -/
structure BMap (β : Type) where
  cap : ℕ
  keys : Finset String
  get : String → β

variable {β : Type}

/-- The empty map. -/
def BMap.empty [Inhabited β] (cap : ℕ) : BMap β := ⟨cap, ∅, fun _ => default⟩

/-- Overwrite a present ID, insert an absent one if there is room, refuse otherwise. -/
def BMap.store (m : BMap β) (id : String) (v : β) : Bool × BMap β :=
  if id ∈ m.keys ∨ m.keys.card < m.cap then
    (true, { m with keys := insert id m.keys, get := fun x => if x = id then v else m.get x })
  else (false, m)

/-- The value of a present ID. -/
def BMap.load (m : BMap β) (id : String) : Option β := if id ∈ m.keys then some (m.get id) else none

/-- Remove an ID. -/
def BMap.delete (m : BMap β) (id : String) : BMap β := { m with keys := m.keys.erase id }

/-- Remove all IDs. -/
def BMap.clear (m : BMap β) : BMap β := { m with keys := ∅ }

/-- `l` lists every entry of the map exactly once. -/
def BMap.Enumerates (m : BMap β) (l : List (String × β)) : Prop :=
  (l.map Prod.fst).Nodup ∧ (∀ id, id ∈ l.map Prod.fst ↔ id ∈ m.keys) ∧ ∀ p ∈ l, p.2 = m.get p.1

end Verif.Spec
