import Verif.Model.Neighbors
import Verif.Spec.BoundedMap
import Mathlib.Data.List.Nodup
import Mathlib.Tactic.Linarith
import Mathlib.Tactic.NormNum

/-!
# Neighbour storage: C33
-/

set_option autoImplicit false

namespace Verif
open Spec

variable {β : Type} [Inhabited β]

theorem getD_set {γ : Type} (l : List γ) (i j : ℕ) (v d : γ) :
    (l.set i v).getD j d = if i = j ∧ i < l.length then v else l.getD j d := by
  rw [List.getD_eq_getElem?_getD, List.getD_eq_getElem?_getD, List.getElem?_set]
  by_cases h1 : i = j
  · subst h1
    by_cases h2 : i < l.length
    · rw [if_pos rfl, if_pos h2, if_pos ⟨rfl, h2⟩]; rfl
    · rw [if_pos rfl, if_neg h2, if_neg (fun h => h2 h.2), List.getElem?_eq_none (not_lt.1 h2)]
  · rw [if_neg h1, if_neg (fun h => h1 h.1)]

/-- The storage represents the map: the first `count` slots hold the entries, each once, and all other slots are
cleared. -/
structure Represents (ns : NeighborStorage β) (m : BMap β) : Prop where
  cap : ns.capacity = m.cap
  idsLen : ns.ids.length = ns.capacity
  nbrLen : ns.neighbors.length = ns.capacity
  count_le : ns.count ≤ ns.capacity
  inj : ∀ i j, i < ns.count → j < ns.count → ns.ids.getD i "" = ns.ids.getD j "" → i = j
  keys : ∀ id, id ∈ m.keys ↔ ∃ i < ns.count, ns.ids.getD i "" = id
  card : m.keys.card = ns.count
  vals : ∀ i < ns.count, ns.neighbors.getD i default = m.get (ns.ids.getD i "")
  clean : ∀ i, ns.count ≤ i → ns.ids.getD i "" = "" ∧ ns.neighbors.getD i default = default

omit [Inhabited β] in
theorem find_some {ns : NeighborStorage β} {id : String} {i : ℕ} (h : ns.find id = some i) :
    i < ns.count ∧ ns.ids.getD i "" = id := by
  unfold NeighborStorage.find at h
  refine ⟨List.mem_range.1 (List.mem_of_find?_eq_some h), ?_⟩
  simpa using List.find?_some h

omit [Inhabited β] in
theorem find_none {ns : NeighborStorage β} {id : String} (h : ns.find id = none) :
    ∀ i < ns.count, ns.ids.getD i "" ≠ id := by
  unfold NeighborStorage.find at h
  intro i hi
  have := List.find?_eq_none.1 h i (List.mem_range.2 hi)
  simpa using this

theorem represents_new (c : ℤ) :
    Represents (NeighborStorage.new c : NeighborStorage β) (BMap.empty (if c ≤ 0 then 20 else c.toNat)) := by
  unfold NeighborStorage.new BMap.empty
  have : (if c ≤ 0 then (20 : ℤ) else c).toNat = if c ≤ 0 then 20 else c.toNat := by split_ifs <;> rfl
  refine ⟨this, by simp, by simp, Nat.zero_le _, by simp, by simp, rfl, by simp, fun i _ => ?_⟩
  dsimp only
  constructor
  · rw [List.getD_eq_getElem?_getD, List.getElem?_replicate]; split_ifs <;> rfl
  · rw [List.getD_eq_getElem?_getD, List.getElem?_replicate]; split_ifs <;> rfl

/-- Storing: same answer as the map, and the result represents the updated map. -/
theorem C33_store (ns : NeighborStorage β) (m : BMap β) (h : Represents ns m) (id : String) (v : β) :
    (ns.store id v).1 = (m.store id v).1 ∧ Represents (ns.store id v).2 (m.store id v).2 := by
  obtain ⟨hc, hl1, hl2, hle, inj, keys, card, vals, clean⟩ := h
  unfold NeighborStorage.store BMap.store
  cases hf : ns.find id with
  | some i =>
    obtain ⟨hi, rfl⟩ := find_some hf
    have hk : ns.ids.getD i "" ∈ m.keys := (keys _).2 ⟨i, hi, rfl⟩
    rw [if_pos (Or.inl hk)]
    dsimp only
    refine ⟨rfl, ⟨hc, hl1, by simpa using hl2, hle, inj, ?_, ?_, ?_, ?_⟩⟩
    · intro x
      rw [Finset.insert_eq_of_mem hk]; exact keys x
    · rw [Finset.insert_eq_of_mem hk]; exact card
    · intro j hj
      dsimp only at hj ⊢
      rw [getD_set]
      by_cases e : i = j
      · subst e; rw [if_pos ⟨rfl, by omega⟩, if_pos rfl]
      · rw [if_neg (fun h => e h.1), if_neg (fun h => e (inj i j hi hj h.symm))]
        exact vals j hj
    · intro j hj
      refine ⟨(clean j hj).1, ?_⟩
      rw [getD_set, if_neg (by rintro ⟨rfl, -⟩; exact absurd hi (not_lt.2 hj))]
      exact (clean j hj).2
  | none =>
    have hn := find_none hf
    have hk : id ∉ m.keys := fun h => by
      obtain ⟨i, hi, e⟩ := (keys id).1 h
      exact hn i hi e
    by_cases hlt : ns.count < ns.capacity
    · dsimp only
      rw [if_pos hlt, if_pos (Or.inr (by rw [card, ← hc]; exact hlt))]
      have e1 : ∀ j, (ns.ids.set ns.count id).getD j "" = if ns.count = j then id else ns.ids.getD j "" := by
        intro j; rw [getD_set]; congr 1; simp only [eq_iff_iff, and_iff_left_iff_imp]; omega
      have e2 : ∀ j, (ns.neighbors.set ns.count v).getD j default =
          if ns.count = j then v else ns.neighbors.getD j default := by
        intro j; rw [getD_set]; congr 1; simp only [eq_iff_iff, and_iff_left_iff_imp]; omega
      refine ⟨rfl, ⟨hc, by simpa using hl1, by simpa using hl2, hlt, ?_, ?_, ?_, ?_, ?_⟩⟩
      · intro i j hi hj
        dsimp only at hi hj ⊢
        rw [e1, e1]
        split_ifs with h1 h2 h2
        · intro _; omega
        · intro h; exact absurd h.symm (hn j (by omega))
        · intro h; exact absurd h (hn i (by omega))
        · exact inj i j (by omega) (by omega)
      · intro x
        simp only [Finset.mem_insert, keys]
        constructor
        · rintro (rfl | ⟨i, hi, rfl⟩)
          · exact ⟨ns.count, by omega, by rw [e1, if_pos rfl]⟩
          · exact ⟨i, by omega, by rw [e1, if_neg (by omega)]⟩
        · rintro ⟨i, hi, e⟩
          rw [e1] at e
          split_ifs at e with h1
          · exact Or.inl e.symm
          · exact Or.inr ⟨i, by omega, e⟩
      · dsimp only
        rw [Finset.card_insert_of_notMem hk, card]
      · intro i hi
        dsimp only at hi ⊢
        rw [e1, e2]
        by_cases h1 : ns.count = i
        · rw [if_pos h1, if_pos h1, if_pos rfl]
        · rw [if_neg h1, if_neg h1, if_neg (hn i (by omega))]
          exact vals i (by omega)
      · intro i hi
        dsimp only at hi ⊢
        rw [e1, e2, if_neg (by omega), if_neg (by omega)]
        exact clean i (by omega)
    · dsimp only
      rw [if_neg hlt, if_neg (not_or.2 ⟨hk, by rw [card, ← hc]; exact hlt⟩)]
      exact ⟨rfl, ⟨hc, hl1, hl2, hle, inj, keys, card, vals, clean⟩⟩

/-- Loading returns what the map holds. -/
theorem C33_load (ns : NeighborStorage β) (m : BMap β) (h : Represents ns m) (id : String) :
    ns.load id = m.load id := by
  unfold NeighborStorage.load BMap.load
  cases hf : ns.find id with
  | some i =>
    obtain ⟨hi, rfl⟩ := find_some hf
    rw [if_pos ((h.keys _).2 ⟨i, hi, rfl⟩), Option.map_some, h.vals i hi]
  | none =>
    have hn := find_none hf
    rw [if_neg (fun hk => by
      obtain ⟨i, hi, e⟩ := (h.keys id).1 hk
      exact hn i hi e), Option.map_none]

/-- Deleting: the result represents the map without that ID. -/
theorem C33_delete (ns : NeighborStorage β) (m : BMap β) (h : Represents ns m) (id : String) :
    Represents (ns.delete id) (m.delete id) := by
  obtain ⟨hc, hl1, hl2, hle, inj, keys, card, vals, clean⟩ := h
  unfold NeighborStorage.delete BMap.delete
  cases hf : ns.find id with
  | none =>
    have hn := find_none hf
    have hk : id ∉ m.keys := fun h => by
      obtain ⟨i, hi, e⟩ := (keys id).1 h
      exact hn i hi e
    rw [Finset.erase_eq_of_notMem hk]
    exact ⟨hc, hl1, hl2, hle, inj, keys, card, vals, clean⟩
  | some i =>
    obtain ⟨hi, rfl⟩ := find_some hf
    have hk : ns.ids.getD i "" ∈ m.keys := (keys _).2 ⟨i, hi, rfl⟩
    dsimp only
    -- slots after the deletion
    have gen : ∀ {γ : Type} (l : List γ) (d : γ), l.length = ns.capacity → ∀ j,
        ((if i < ns.count - 1 then l.set i (l.getD (ns.count - 1) d) else l).set (ns.count - 1) d).getD j d =
        if j = ns.count - 1 then d else if j = i then l.getD (ns.count - 1) d else l.getD j d := by
      intro γ l d hl j
      rw [getD_set]
      by_cases hj : j = ns.count - 1
      · subst hj
        rw [if_pos ⟨rfl, by split_ifs <;> (try rw [List.length_set]) <;> omega⟩, if_pos rfl]
      · rw [if_neg (fun h => hj h.1.symm), if_neg hj]
        split_ifs with h1 h2 h2
        · rw [getD_set, if_pos ⟨h2.symm, by omega⟩]
        · rw [getD_set, if_neg (fun h => h2 h.1.symm)]
        · exfalso; omega
        · rfl
    have e1 := gen ns.ids "" hl1
    have e2 := gen ns.neighbors default hl2
    refine ⟨hc, ?_, ?_, by dsimp only; omega, ?_, ?_, ?_, ?_, ?_⟩
    · dsimp only; split_ifs <;> simpa using hl1
    · dsimp only; split_ifs <;> simpa using hl2
    · intro a b ha hb
      dsimp only at ha hb ⊢
      rw [e1, e1, if_neg (show ¬ a = ns.count - 1 by omega), if_neg (show ¬ b = ns.count - 1 by omega)]
      split_ifs with h1 h2 h2
      · intro _; omega
      · intro h; have := inj _ _ (by omega) (by omega) h; omega
      · intro h; have := inj _ _ (by omega) (by omega) h; omega
      · exact inj a b (by omega) (by omega)
    · intro x
      simp only [Finset.mem_erase, keys]
      constructor
      · rintro ⟨hx, j, hj, rfl⟩
        have hji : j ≠ i := fun h => hx (by rw [h])
        by_cases hjl : j = ns.count - 1
        · subst hjl
          exact ⟨i, by omega, by rw [e1, if_neg (by omega), if_pos rfl]⟩
        · exact ⟨j, by omega, by rw [e1, if_neg hjl, if_neg hji]⟩
      · rintro ⟨j, hj, e⟩
        rw [e1, if_neg (by omega)] at e
        split_ifs at e with h1
        · subst h1
          exact ⟨fun h => by have := inj _ _ (by omega) hi (e.trans h); omega, ns.count - 1, by omega, e⟩
        · exact ⟨fun h => h1 (inj _ _ (by omega) hi (e.trans h)), j, by omega, e⟩
    · dsimp only
      rw [Finset.card_erase_of_mem hk, card]
    · intro j hj
      dsimp only at hj ⊢
      rw [e1, e2, if_neg (show ¬ j = ns.count - 1 by omega), if_neg (show ¬ j = ns.count - 1 by omega)]
      split_ifs with h1
      · exact vals _ (by omega)
      · exact vals _ (by omega)
    · intro j hj
      dsimp only at hj ⊢
      rw [e1, e2]
      split_ifs with h1 h2
      · exact ⟨rfl, rfl⟩
      · exfalso; omega
      · exact clean j (by omega)

/-- Clearing: the result represents the empty map. -/
theorem C33_clear (ns : NeighborStorage β) (m : BMap β) (h : Represents ns m) : Represents ns.clear m.clear := by
  obtain ⟨hc, hl1, hl2, hle, inj, keys, card, vals, clean⟩ := h
  unfold NeighborStorage.clear BMap.clear
  have gen : ∀ {γ : Type} (l : List γ) (d : γ), (∀ j, ns.count ≤ j → l.getD j d = d) → ∀ j,
      (List.replicate ns.count d ++ l.drop ns.count).getD j d = d := by
    intro γ l d hl j
    rw [List.getD_eq_getElem?_getD]
    by_cases hj : j < ns.count
    · rw [List.getElem?_append_left (by simpa using hj), List.getElem?_replicate, if_pos hj]; rfl
    · rw [List.getElem?_append_right (by simpa using hj), List.getElem?_drop, List.length_replicate,
        ← List.getD_eq_getElem?_getD]
      exact hl _ (by omega)
  refine ⟨hc, by simp; omega, by simp; omega, Nat.zero_le _, by simp, by simp, rfl, by simp, fun j _ => ?_⟩
  exact ⟨gen _ _ (fun j hj => (clean j hj).1) j, gen _ _ (fun j hj => (clean j hj).2) j⟩

/-- The number reported is the number of IDs. -/
theorem C33_count (ns : NeighborStorage β) (m : BMap β) (h : Represents ns m) : ns.countOf = m.keys.card := h.card.symm

/-- An iteration that is never stopped visits every entry exactly once; one that is stopped visits an initial part. -/
theorem C33_range (ns : NeighborStorage β) (m : BMap β) (h : Represents ns m) :
    m.Enumerates (ns.range fun _ => false) ∧
    ∀ stop, ns.range stop <+: ns.range (fun _ => false) ∧
      ∀ p ∈ (ns.range stop).dropLast, stop p = false := by
  have full : ∀ l : List (String × β), NeighborStorage.range.go (fun _ => false) l = l := by
    intro l
    induction l with
    | nil => rfl
    | cons p ps ih => simp [NeighborStorage.range.go, ih]
  constructor
  · unfold NeighborStorage.range BMap.Enumerates
    rw [full, List.map_map]
    refine ⟨?_, ?_, ?_⟩
    · rw [List.nodup_map_iff_inj_on List.nodup_range]
      intro i hi j hj e
      exact h.inj i j (List.mem_range.1 hi) (List.mem_range.1 hj) e
    · intro id
      rw [h.keys, List.mem_map]
      simp only [List.mem_range, Function.comp_apply]
    · intro p hp
      obtain ⟨i, hi, rfl⟩ := List.mem_map.1 hp
      exact h.vals i (List.mem_range.1 hi)
  · intro stop
    unfold NeighborStorage.range
    rw [full]
    generalize (List.range ns.count).map _ = l
    induction l with
    | nil => exact ⟨List.nil_prefix, by simp [NeighborStorage.range.go]⟩
    | cons p ps ih =>
      unfold NeighborStorage.range.go
      split_ifs with hs
      · exact ⟨by simp, by simp⟩
      · refine ⟨by simpa using ih.1, fun q hq => ?_⟩
        cases hgo : NeighborStorage.range.go stop ps with
        | nil => rw [hgo] at hq; simp at hq
        | cons q' qs =>
          rw [hgo, List.dropLast_cons_of_ne_nil (by simp)] at hq
          rcases List.mem_cons.1 hq with rfl | hq
          · simpa using hs
          · exact ih.2 q (by rw [hgo]; exact hq)

/-- A callback that asks to stop is called for every pair up to and including the first one where it does. -/
theorem C33_range_stop (ns : NeighborStorage β) (stop : String × β → Bool) :
    ((∀ p ∈ ns.range fun _ => false, stop p = false) → ns.range stop = ns.range fun _ => false) ∧
    ∀ pre p rest, (ns.range fun _ => false) = pre ++ p :: rest → (∀ q ∈ pre, stop q = false) → stop p = true →
      ns.range stop = pre ++ [p] := by
  have full : ∀ l : List (String × β), NeighborStorage.range.go (fun _ => false) l = l := by
    intro l
    induction l with
    | nil => rfl
    | cons p ps ih => simp [NeighborStorage.range.go, ih]
  unfold NeighborStorage.range
  rw [full]
  generalize (List.range ns.count).map _ = l
  constructor
  · intro h
    induction l with
    | nil => rfl
    | cons p ps ih =>
      rw [NeighborStorage.range.go, if_neg (by rw [h p List.mem_cons_self]; simp), ih fun q hq => h q (List.mem_cons_of_mem _ hq)]
  · intro pre p rest e hpre hp
    subst e
    induction pre with
    | nil => rw [List.nil_append, NeighborStorage.range.go, if_pos hp]; rfl
    | cons q qs ih =>
      rw [List.cons_append, NeighborStorage.range.go, if_neg (by rw [hpre q List.mem_cons_self]; simp),
        ih fun r hr => hpre r (List.mem_cons_of_mem _ hr)]
      rfl

/-- The list of all neighbours holds the value of every ID exactly once. -/
theorem C33_all (ns : NeighborStorage β) (m : BMap β) (h : Represents ns m) :
    ns.all = (ns.range fun _ => false).map Prod.snd := by
  have full : ∀ l : List (String × β), NeighborStorage.range.go (fun _ => false) l = l := by
    intro l
    induction l with
    | nil => rfl
    | cons p ps ih => simp [NeighborStorage.range.go, ih]
  unfold NeighborStorage.range NeighborStorage.all
  rw [full, List.map_map]
  have h1 := h.count_le
  have h2 := h.nbrLen
  apply List.ext_getElem
  · simp; omega
  · intro i hi1 hi2
    simp only [List.length_map, List.length_range] at hi2
    rw [List.getElem_take, List.getElem_map, List.getElem_range, Function.comp_apply]
    change _ = ns.neighbors.getD i default
    rw [List.getD_eq_getElem?_getD, List.getElem?_eq_getElem (by omega), Option.getD_some]

/-! ### Whole histories -/

/-- A call on the storage. -/
inductive NsOp (β : Type) where
  | store (id : String) (v : β)
  | load (id : String)
  | delete (id : String)
  | clear
  | count

/-- What a caller sees of a call. -/
inductive NsResult (β : Type) where
  | stored (ok : Bool)
  | loaded (v : Option β)
  | counted (n : ℕ)
  | unit

/-- A call on the storage. -/
def NeighborStorage.step (ns : NeighborStorage β) : NsOp β → NsResult β × NeighborStorage β
  | .store id v => (.stored (ns.store id v).1, (ns.store id v).2)
  | .load id => (.loaded (ns.load id), ns)
  | .delete id => (.unit, ns.delete id)
  | .clear => (.unit, ns.clear)
  | .count => (.counted ns.countOf, ns)

/-- The same call on the map. -/
def bmapStep (m : BMap β) : NsOp β → NsResult β × BMap β
  | .store id v => (.stored (m.store id v).1, (m.store id v).2)
  | .load id => (.loaded (m.load id), m)
  | .delete id => (.unit, m.delete id)
  | .clear => (.unit, m.clear)
  | .count => (.counted m.keys.card, m)

/-- Results of a history and the final state. -/
def runOps {σ ρ op : Type} (step : σ → op → ρ × σ) (s : σ) : List op → List ρ × σ
  | [] => ([], s)
  | o :: os => ((step s o).1 :: (runOps step (step s o).2 os).1, (runOps step (step s o).2 os).2)

/-- **C33.** For every capacity argument and every history of calls, the storage gives the same answers as a finite map
with that capacity (20 if the argument is not positive), and represents it afterwards. -/
theorem C33_refines (c : ℤ) (ops : List (NsOp β)) :
    (runOps NeighborStorage.step (NeighborStorage.new c) ops).1 =
      (runOps bmapStep (BMap.empty (if c ≤ 0 then 20 else c.toNat)) ops).1 ∧
    Represents (runOps NeighborStorage.step (NeighborStorage.new c : NeighborStorage β) ops).2
      (runOps bmapStep (BMap.empty (if c ≤ 0 then 20 else c.toNat)) ops).2 := by
  have h := represents_new (β := β) c
  generalize (NeighborStorage.new c : NeighborStorage β) = ns at *
  generalize (BMap.empty (if c ≤ 0 then 20 else c.toNat) : BMap β) = m at *
  induction ops generalizing ns m with
  | nil => exact ⟨rfl, h⟩
  | cons o os ih =>
    have hstep : (ns.step o).1 = (bmapStep m o).1 ∧ Represents (ns.step o).2 (bmapStep m o).2 := by
      cases o with
      | store id v =>
        obtain ⟨h1, h2⟩ := C33_store ns m h id v
        exact ⟨congrArg _ h1, h2⟩
      | load id => exact ⟨congrArg _ (C33_load ns m h id), h⟩
      | delete id => exact ⟨rfl, C33_delete ns m h id⟩
      | clear => exact ⟨rfl, C33_clear ns m h⟩
      | count => exact ⟨congrArg _ (C33_count ns m h), h⟩
    obtain ⟨i1, i2⟩ := ih _ _ hstep.2
    exact ⟨by simp only [runOps]; rw [hstep.1, i1], i2⟩

example : (runOps NeighborStorage.step (NeighborStorage.new 2 : NeighborStorage ℕ)
    [.store "a" 1, .store "b" 2, .store "c" 3, .delete "a", .store "c" 4, .load "c", .load "a"]).2.neighbors =
    [2, 4] := by rfl

/-- For C33: storage of two entries that represents a map of two entries; a third entry is refused, the two are kept. -/
example : ∃ (ns : NeighborStorage ℕ) (m : BMap ℕ), Represents ns m ∧ ns.countOf = 2 ∧ m.load "b" = some 2 ∧
    (ns.store "c" 3).1 = false ∧ (ns.delete "a").load "a" = none := by
  refine ⟨_, _, (C33_refines 2 [.store "a" 1, .store "b" 2]).2, rfl, ?_, rfl, rfl⟩
  rw [← C33_load _ _ (C33_refines 2 [.store "a" 1, .store "b" 2]).2]
  rfl

end Verif
