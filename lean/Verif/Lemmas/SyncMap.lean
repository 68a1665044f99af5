import Verif.Model.Neighbors
import Mathlib.Data.List.Nodup
import Mathlib.Tactic.Common

/-!
# Maps as association lists, and decimal agent IDs
-/

set_option autoImplicit false
set_option linter.unusedSectionVars false

namespace Verif

variable {β : Type} [Inhabited β]

/-- Distinct keys. -/
def SyncMap.Ok (m : SyncMap β) : Prop := (m.map Prod.fst).Nodup

theorem SyncMap.any_iff (m : SyncMap β) (id : String) : m.any (·.1 == id) = true ↔ id ∈ m.map Prod.fst := by
  simp only [List.any_eq_true, beq_iff_eq, List.mem_map]

theorem SyncMap.mem_store {m : SyncMap β} {id k : String} {v x : β} :
    (k, v) ∈ SyncMap.store m id x ↔ (k = id ∧ v = x) ∨ (k ≠ id ∧ (k, v) ∈ m) := by
  unfold SyncMap.store
  by_cases h : m.any (·.1 == id) = true
  · rw [if_pos h]
    simp only [List.mem_map]
    constructor
    · rintro ⟨p, hp, e⟩
      by_cases hk : p.1 = id
      · rw [if_pos (by simpa using hk)] at e; left; simp_all
      · rw [if_neg (by simpa using hk)] at e; right; subst e; exact ⟨hk, hp⟩
    · rintro (⟨rfl, rfl⟩ | ⟨h1, h2⟩)
      · obtain ⟨p, hp, e⟩ := List.mem_map.1 ((SyncMap.any_iff m k).1 h)
        exact ⟨p, hp, by rw [if_pos (by simpa using e)]⟩
      · exact ⟨(k, v), h2, by rw [if_neg (by simpa using h1)]⟩
  · rw [if_neg h]
    have hn : id ∉ m.map Prod.fst := fun hm => h ((SyncMap.any_iff m id).2 hm)
    simp only [List.mem_append, List.mem_singleton, Prod.mk.injEq]
    constructor
    · rintro (h1 | h1)
      · exact Or.inr ⟨fun e => hn (List.mem_map.2 ⟨(k, v), h1, e⟩), h1⟩
      · exact Or.inl h1
    · rintro (h1 | h1)
      · exact Or.inr h1
      · exact Or.inl h1.2

theorem SyncMap.keys_store (m : SyncMap β) (id : String) (x : β) :
    (SyncMap.store m id x).map Prod.fst = if id ∈ m.map Prod.fst then m.map Prod.fst else m.map Prod.fst ++ [id] := by
  unfold SyncMap.store
  by_cases h : id ∈ m.map Prod.fst
  · rw [if_pos ((SyncMap.any_iff m id).2 h), if_pos h, List.map_map]
    apply List.map_congr_left
    intro p _
    simp only [Function.comp]
    split_ifs with hk
    · simpa using (beq_iff_eq.1 hk).symm
    · rfl
  · rw [if_neg (fun hh => h ((SyncMap.any_iff m id).1 hh)), if_neg h, List.map_append]; rfl

theorem SyncMap.Ok.store {m : SyncMap β} (h : SyncMap.Ok m) (id : String) (x : β) : SyncMap.Ok (SyncMap.store m id x) := by
  unfold SyncMap.Ok
  rw [SyncMap.keys_store]
  split_ifs with hk
  · exact h
  · rw [List.nodup_append]
    refine ⟨h, List.nodup_singleton _, ?_⟩
    intro a ha b hb e
    rw [List.mem_singleton] at hb
    exact hk (hb ▸ e ▸ ha)

theorem SyncMap.length_store (m : SyncMap β) (id : String) (x : β) :
    (SyncMap.store m id x).length = if id ∈ m.map Prod.fst then m.length else m.length + 1 := by
  have := congrArg List.length (SyncMap.keys_store m id x)
  rw [List.length_map] at this
  rw [this]
  split_ifs <;> simp

theorem SyncMap.load_isSome (m : SyncMap β) (id : String) : (SyncMap.load m id).isSome = true ↔ id ∈ m.map Prod.fst := by
  unfold SyncMap.load
  rw [Option.isSome_map, List.find?_isSome]
  simp only [beq_iff_eq, List.mem_map]

theorem SyncMap.load_eq_some {m : SyncMap β} (h : SyncMap.Ok m) (id : String) (v : β) :
    SyncMap.load m id = some v ↔ (id, v) ∈ m := by
  unfold SyncMap.load
  constructor
  · intro e
    obtain ⟨p, hp, rfl⟩ := Option.map_eq_some_iff.1 e
    have h1 := List.mem_of_find?_eq_some hp
    have h2 : p.1 = id := by simpa using List.find?_some hp
    rw [← h2]; exact h1
  · intro hm
    cases hf : m.find? (·.1 == id) with
    | none =>
      have := List.find?_eq_none.1 hf (id, v) hm
      simp at this
    | some p =>
      have h1 := List.mem_of_find?_eq_some hf
      have h2 : p.1 = id := by simpa using List.find?_some hf
      have : p = (id, v) := List.inj_on_of_nodup_map h h1 hm h2
      rw [this]; rfl

theorem SyncMap.load_eq_none (m : SyncMap β) (id : String) : SyncMap.load m id = none ↔ id ∉ m.map Prod.fst := by
  rw [← SyncMap.load_isSome]
  cases SyncMap.load m id <;> simp

/-- Storing distinct new keys one after the other lists them in order. -/
theorem SyncMap.foldl_store {γ : Type} (key : γ → String) (val : γ → β) (l : List γ) (m : SyncMap β)
    (h : (m.map Prod.fst ++ l.map key).Nodup) :
    l.foldl (fun m x => SyncMap.store m (key x) (val x)) m = m ++ l.map fun x => (key x, val x) := by
  induction l generalizing m with
  | nil => simp
  | cons x xs ih =>
    have hx : key x ∉ m.map Prod.fst := by
      rw [List.nodup_append] at h
      exact fun hh => h.2.2 _ hh _ (by simp) rfl
    have e : SyncMap.store m (key x) (val x) = m ++ [(key x, val x)] := by
      unfold SyncMap.store
      rw [if_neg (fun hh => hx ((SyncMap.any_iff m _).1 hh))]
    rw [List.foldl_cons, e, ih, List.map_cons, List.append_assoc, List.singleton_append]
    simpa using h

end Verif
