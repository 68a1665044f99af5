import Verif.Props.Agent
import Verif.Props.SwarmGraph

/-! # C34: agents without the bounded storage -/

set_option autoImplicit false
set_option linter.unusedSectionVars false

namespace Verif
open GoMath Spec

section
variable {α : Type} [Zero α] [One α] [Add α] [Sub α] [Mul α] [Div α] [Neg α] [LT α] [LE α]
  [DecidableLT α] [DecidableLE α] [BEq α] [OfScientific α] [GoMath α]

/-- The connections in the `sync.Map` of an agent are the set `s`. -/
structure InMap (a : Agent α) (s : Finset String) : Prop where
  opt : a.useOptimized = false
  nodup : (a.neighbors.map Prod.fst).Nodup
  mem : ∀ x, x ∈ a.neighbors.map Prod.fst ↔ x ∈ s

theorem store_keys (m : SyncMap ℕ) (id : String) (v : ℕ) :
    (SyncMap.store m id v).map Prod.fst = if id ∈ m.map Prod.fst then m.map Prod.fst else m.map Prod.fst ++ [id] := by
  unfold SyncMap.store
  have h : (m.any fun p => p.1 == id) = true ↔ id ∈ m.map Prod.fst := by
    simp [List.any_eq_true]
  by_cases hm : id ∈ m.map Prod.fst
  · rw [if_pos (h.2 hm), if_pos hm, List.map_map]
    apply List.map_congr_left
    intro p _
    by_cases hp : p.1 = id <;> simp [hp]
  · rw [if_neg (fun h' => hm (h.1 h')), if_neg hm]
    simp

theorem inMap_step (a : Agent α) (s : Finset String) (h : InMap a s) (op : ConnOp) :
    InMap (a.connStep op) (match op with
      | .connect id (some _) => if id = a.id then s else insert id s
      | .connect _ none => s
      | .disconnect id => s.erase id) := by
  cases op with
  | connect id other =>
    cases other with
    | none => exact h
    | some o =>
      simp only [Agent.connStep, Agent.connectTo]
      by_cases hid : id = a.id
      · rw [if_pos hid, if_pos hid]; exact h
      · rw [if_neg hid, if_neg hid, if_neg (by rw [h.opt]; decide)]
        refine ⟨h.opt, ?_, fun x => ?_⟩
        · show ((SyncMap.store a.neighbors id o).map Prod.fst).Nodup
          rw [store_keys]
          split_ifs with hm
          · exact h.nodup
          · exact List.nodup_append.2 ⟨h.nodup, by simp, fun x hx y hy e => hm (by rw [List.mem_singleton] at hy; rw [← hy, ← e]; exact hx)⟩
        · show x ∈ (SyncMap.store a.neighbors id o).map Prod.fst ↔ _
          rw [store_keys, Finset.mem_insert, ← h.mem]
          split_ifs with hm
          · exact ⟨Or.inr, fun hx => hx.elim (fun e => e ▸ hm) fun h => h⟩
          · rw [List.mem_append, List.mem_singleton, or_comm]
  | disconnect id =>
    simp only [Agent.connStep, Agent.disconnectFrom]
    rw [if_neg (by rw [h.opt]; decide)]
    have e : (SyncMap.delete a.neighbors id).map Prod.fst = (a.neighbors.map Prod.fst).filter fun x => !(x == id) := by
      unfold SyncMap.delete
      rw [List.filter_map]
      rfl
    refine ⟨h.opt, ?_, fun x => ?_⟩
    · show ((SyncMap.delete a.neighbors id).map Prod.fst).Nodup
      rw [e]; exact h.nodup.filter _
    · show x ∈ (SyncMap.delete a.neighbors id).map Prod.fst ↔ _
      rw [e, List.mem_filter, h.mem, Finset.mem_erase]
      simp [and_comm]

/-- **C34, without a limit.** An agent that does not use the bounded storage (`agent.Agent{}`: no constructor makes one) is connected, after any history of
requests, to exactly the peers it was asked to connect to and not to disconnect from since, however many, and counts them correctly. -/
theorem C34_unlimited (a : Agent α) (ho : a.useOptimized = false) (hn : a.neighbors = []) (ops : List ConnOp) :
    (∀ x, (ops.foldl Agent.connStep a).isConnectedTo x = true ↔ x ∈ peers a.id ops) ∧
    (ops.foldl Agent.connStep a).neighborCount = (peers a.id ops).card := by
  have run : ∀ (ops : List ConnOp) (b : Agent α) (s : Finset String), InMap b s → InMap (ops.foldl Agent.connStep b)
      (ops.foldl (fun s op => match op with
        | .connect id (some _) => if id = b.id then s else insert id s
        | .connect _ none => s
        | .disconnect id => s.erase id) s) := by
    intro ops
    induction ops with
    | nil => exact fun _ _ h => h
    | cons op ops ih =>
      intro b s h
      have := ih _ _ (inMap_step b s h op)
      rw [connStep_id] at this
      exact this
  have h := run ops a ∅ ⟨ho, by rw [hn]; exact List.nodup_nil, fun x => by rw [hn]; simp⟩
  change InMap _ (peers a.id ops) at h
  refine ⟨fun x => ?_, ?_⟩
  · unfold Agent.isConnectedTo
    rw [if_neg (by rw [h.opt]; decide), SyncMap.load_isSome, h.mem]
  · unfold Agent.neighborCount
    rw [h.opt]
    have hl : (ops.foldl Agent.connStep a).neighbors.length = (peers a.id ops).card := by
      rw [← List.length_map (f := Prod.fst), ← List.toFinset_card_of_nodup h.nodup]
      congr 1
      ext x
      rw [List.mem_toFinset, h.mem]
    simp [hl]

/-- The zero agent with a name is connected to two others, not to itself, and then no longer to one of them. -/
example :
    let a : Agent α := { Agent.zero with id := "a" }
    let b := [ConnOp.connect "b" (some 1), .connect "a" (some 0), .connect "c" (some 2), .disconnect "b"].foldl Agent.connStep a
    b.isConnectedTo "c" = true ∧ b.isConnectedTo "b" = false ∧ b.neighborCount = 1 := by
  intro a
  obtain ⟨h1, h2⟩ := C34_unlimited a rfl rfl [.connect "b" (some 1), .connect "a" (some 0), .connect "c" (some 2), .disconnect "b"]
  have e : peers a.id [.connect "b" (some 1), .connect "a" (some 0), .connect "c" (some 2), .disconnect "b"] = {"c"} := by
    show peers "a" _ = _
    decide
  rw [e] at h1 h2
  refine ⟨(h1 "c").2 (by decide), ?_, h2⟩
  rw [Bool.eq_false_iff]
  exact fun h => absurd ((h1 "b").1 h) (by decide)

end
end Verif
