import Verif.Model.WorkKinds
import Verif.Props.TaskFlow
import Mathlib.Data.List.Nodup
import Mathlib.Tactic.Ring

/-! # Kinds of workload (C126) -/

set_option autoImplicit false
set_option linter.unusedSectionVars false

namespace Verif

/-- The kind listed at position `i`, counted round and round. -/
def Spec.roundRobin {T : Type} (l : List T) (i : ℕ) : Option T := l[i % l.length]?

open Spec

/-- Every goal, known or not, has the kinds of one of the eight. -/
theorem kinds_cases (g : GoalType) : ∃ k ∈ ([0, 1, 2, 3, 4, 5, 6, 7] : List ℤ), getWorkloadsForGoal g = getWorkloadsForGoal k := by
  by_cases h : g ∈ ([0, 1, 2, 3, 4, 5, 6, 7] : List ℤ)
  · exact ⟨g, h, rfl⟩
  · refine ⟨0, by decide, ?_⟩
    have : goalWorkloads g = none := by
      unfold goalWorkloads
      split <;> first | rfl | (exfalso; apply h; decide)
    unfold getWorkloadsForGoal
    rw [this]
    rfl

theorem kinds_of {P : List (String × String) → Prop} (h : ∀ k ∈ ([0, 1, 2, 3, 4, 5, 6, 7] : List ℤ), P (getWorkloadsForGoal k)) (g : GoalType) :
    P (getWorkloadsForGoal g) := by
  obtain ⟨k, hk, e⟩ := kinds_cases g
  rw [e]
  exact h k hk

theorem kinds_length (g : GoalType) : (getWorkloadsForGoal g).length = 8 := by
  refine kinds_of (P := fun l => l.length = 8) ?_ g
  decide +kernel

theorem kinds_nodup (g : GoalType) : ((getWorkloadsForGoal g).map Prod.fst).Nodup := by
  refine kinds_of (P := fun l => (l.map Prod.fst).Nodup) ?_ g
  decide +kernel

/-- Every kind of every goal has three different types of task in the table. -/
def Spec.ThreeTypes (name : String) : Prop := ∃ a b c, taskTypes.lookup name = some [a, b, c] ∧ a ≠ b ∧ a ≠ c ∧ b ≠ c

theorem threeTypes_of {name : String} (h : (match taskTypes.lookup name with
    | some [a, b, c] => decide (a ≠ b ∧ a ≠ c ∧ b ≠ c)
    | _ => false) = true) : ThreeTypes name := by
  split at h
  · rename_i a b c e
    exact ⟨a, b, c, e, by simpa using h⟩
  · simp at h

/-- **C126 (types).** Every goal, also one that the demo does not know, has eight kinds of workload with different names, and each of them
has three different types of task: no workload of the demo ever falls back to `process_request` for want of an entry. -/
theorem C126_types (g : GoalType) :
    (getWorkloadsForGoal g).length = 8 ∧ ((getWorkloadsForGoal g).map Prod.fst).Nodup ∧ ∀ k ∈ getWorkloadsForGoal g, ThreeTypes k.1 := by
  refine ⟨kinds_length g, kinds_nodup g, ?_⟩
  refine kinds_of (P := fun l => ∀ k ∈ l, ThreeTypes k.1) ?_ g
  have h : ∀ g ∈ ([0, 1, 2, 3, 4, 5, 6, 7] : List ℤ), ∀ k ∈ getWorkloadsForGoal g, (match taskTypes.lookup k.1 with
      | some [a, b, c] => decide (a ≠ b ∧ a ≠ c ∧ b ≠ c)
      | _ => false) = true := by decide +kernel
  exact fun g hg k hk => threeTypes_of (h g hg k hk)

/-! ### Assignment -/

theorem workloadKind_eq (g : GoalType) (i : ℕ) : ∃ k, roundRobin (getWorkloadsForGoal g) i = some k ∧ workloadKind g (i : ℤ) = .ok k := by
  have hlt : i % (getWorkloadsForGoal g).length < (getWorkloadsForGoal g).length := Nat.mod_lt _ (by rw [kinds_length]; omega)
  refine ⟨(getWorkloadsForGoal g)[i % (getWorkloadsForGoal g).length], List.getElem?_eq_getElem hlt, ?_⟩
  have e : Int.tmod (i : ℤ) ((getWorkloadsForGoal g).length : ℤ) = ((i % (getWorkloadsForGoal g).length : ℕ) : ℤ) := by
    rw [Int.tmod_eq_emod_of_nonneg (by omega)]
    simp
  simp only [workloadKind, e]
  rw [if_neg (by omega), Int.toNat_natCast, List.getElem?_eq_getElem hlt]

/-- What the workloads are when the first has the index `i`. -/
theorem init_kinds (g : GoalType) (count : ℤ) (i : ℕ) (ids : List String) :
    ∃ l, initWorkloads g count i ids = .ok l ∧ l.map Prod.fst = ids.take (count - i).toNat ∧
      ∀ j (w : String × (String × String)), l[j]? = some w → roundRobin (getWorkloadsForGoal g) (i + j) = some w.2 := by
  induction ids generalizing i with
  | nil => exact ⟨[], rfl, by simp, by simp⟩
  | cons id ids ih =>
    by_cases hc : (i : ℤ) ≥ count
    · refine ⟨[], by simp [initWorkloads, hc], ?_, by simp⟩
      rw [show (count - (i : ℤ)).toNat = 0 by omega]
      simp
    · obtain ⟨k, hk, e⟩ := workloadKind_eq g i
      obtain ⟨l, hl, h1, h2⟩ := ih (i + 1)
      push_cast at hl h1
      refine ⟨(id, k) :: l, by simp only [initWorkloads, if_neg hc, e, hl], ?_, ?_⟩
      · rw [show (count - (i : ℤ)).toNat = (count - ((i : ℤ) + 1)).toNat + 1 by omega]
        simp [h1]
      · intro j w hw
        cases j with
        | zero =>
          obtain rfl : (id, k) = w := by simpa using hw
          simpa using hk
        | succ j =>
          have := h2 j w (by simpa using hw)
          rwa [show i + 1 + j = i + (j + 1) by omega] at this

/-- How often a kind occurs among workloads whose kinds go round the list. -/
theorem robin_count {T : Type} [BEq T] [LawfulBEq T] (types : List T) (h8 : types.length = 8) (hn : types.Nodup) (r : ℕ) (hr : r < 8) (l : List T) (s : ℕ)
    (h : ∀ (j : ℕ) (t : T), l[j]? = some t → roundRobin types (s + j) = some t) :
    l.count (types[r]'(by omega)) = (s + l.length + 7 - r) / 8 - (s + 7 - r) / 8 := by
  induction l generalizing s with
  | nil => simp
  | cons a l ih =>
    have ha := h 0 a (by simp)
    have hl := ih (s + 1) (fun j t ht => by
      have := h (j + 1) t (by simpa using ht)
      rwa [show s + (j + 1) = s + 1 + j by omega] at this)
    simp only [roundRobin, h8, Nat.add_zero] at ha
    rw [List.getElem?_eq_getElem (by rw [h8]; omega)] at ha
    have ha' : types[s % 8]'(by omega) = a := by simpa using ha
    rw [List.count_cons, hl]
    by_cases e : s % 8 = r
    · have : a = types[r]'(by omega) := by rw [← ha']; simp only [e]
      rw [if_pos (by simpa using this)]
      simp only [List.length_cons]
      omega
    · have : a ≠ types[r]'(by omega) := by
        rw [← ha']
        intro hh
        exact e ((List.Nodup.getElem_inj_iff hn).mp hh)
      rw [if_neg (by simpa using this)]
      simp only [List.length_cons]
      omega

/-- **C126 (assignment).** Building a simulation never panics over the kinds. The workloads are those of the first `count` agents visited, each
of a kind listed for the goal, and the kinds are dealt out evenly: no kind has two workloads more than another. -/
theorem C126_assignment (g : GoalType) (count : ℤ) (ids : List String) :
    ∃ l, initWorkloads g count 0 ids = .ok l ∧ l.map Prod.fst = ids.take count.toNat ∧
      (∀ w ∈ l, w.2 ∈ getWorkloadsForGoal g) ∧
      (∀ a ∈ getWorkloadsForGoal g, ∀ b ∈ getWorkloadsForGoal g, (l.map Prod.snd).count a ≤ (l.map Prod.snd).count b + 1) := by
  obtain ⟨l, hl, h1, h2⟩ := init_kinds g count 0 ids
  refine ⟨l, by simpa using hl, by simpa using h1, ?_, ?_⟩
  · intro w hw
    obtain ⟨j, hj⟩ := List.mem_iff_getElem?.mp hw
    exact List.mem_of_getElem? (h2 j w hj)
  · have hn : (getWorkloadsForGoal g).Nodup := (kinds_nodup g).of_map _
    have h8 := kinds_length g
    have hs : ∀ (j : ℕ) (t : String × String), (l.map Prod.snd)[j]? = some t → roundRobin (getWorkloadsForGoal g) (0 + j) = some t := by
      intro j t ht
      rw [List.getElem?_map] at ht
      obtain ⟨w, hw, rfl⟩ := Option.map_eq_some_iff.mp ht
      exact h2 j w hw
    intro a ha b hb
    obtain ⟨ra, hra, rfl⟩ := List.getElem_of_mem ha
    obtain ⟨rb, hrb, rfl⟩ := List.getElem_of_mem hb
    rw [robin_count _ h8 hn ra (by omega) _ 0 hs, robin_count _ h8 hn rb (by omega) _ 0 hs]
    omega

/-- Twenty workloads of the goal of batching: three of the first kind, two of the last. -/
example : ∃ l, initWorkloads 0 20 0 (List.replicate 25 "a") = .ok l ∧ l.length = 20 ∧
    (l.map Prod.snd).count ("DataETL", "📊") = 3 ∧ (l.map Prod.snd).count ("FileConverter", "📄") = 2 := by
  obtain ⟨l, hl⟩ : ∃ l, initWorkloads 0 20 0 (List.replicate 25 "a") = .ok l := by
    obtain ⟨l, h, _⟩ := C126_assignment 0 20 (List.replicate 25 "a")
    exact ⟨l, h⟩
  refine ⟨l, hl, ?_⟩
  have e : (match initWorkloads 0 20 0 (List.replicate 25 "a") with
    | .ok l => decide (l.length = 20 ∧ (l.map Prod.snd).count ("DataETL", "📊") = 3 ∧ (l.map Prod.snd).count ("FileConverter", "📄") = 2)
    | .panic => false) = true := by decide +kernel
  rw [hl] at e
  simpa using e

/-! ### Tasks -/

/-- The tasks a workload creates while its counter goes from `c` to `c + n`. -/
def Spec.tasksFrom (id name : String) (c n : ℕ) : List FullTask := (List.range' c n).map (createFullTask id name)

theorem task_type {name a b c : String} (h : taskTypes.lookup name = some [a, b, c]) (id : String) (n : ℕ) :
    (createFullTask id name n).type = [a, b, c].getD ((n + 1) % 3) "" := by
  simp [createFullTask, h]

theorem tasks_count {name a b c : String} (h : taskTypes.lookup name = some [a, b, c]) (hab : a ≠ b) (hac : a ≠ c) (hbc : b ≠ c) (id : String) (s n : ℕ) :
    ((tasksFrom id name s n).map FullTask.type).count a = (s + n + 3) / 3 - (s + 3) / 3 ∧
    ((tasksFrom id name s n).map FullTask.type).count b = (s + n + 2) / 3 - (s + 2) / 3 ∧
    ((tasksFrom id name s n).map FullTask.type).count c = (s + n + 1) / 3 - (s + 1) / 3 := by
  induction n generalizing s with
  | zero => simp [tasksFrom]
  | succ n ih =>
    have hd : (tasksFrom id name s (n + 1)).map FullTask.type = [a, b, c].getD ((s + 1) % 3) "" :: (tasksFrom id name (s + 1) n).map FullTask.type := by
      rw [← task_type h id s]
      simp [tasksFrom, List.range'_succ]
    obtain ⟨i1, i2, i3⟩ := ih (s + 1)
    rw [hd]
    simp only [List.count_cons, i1, i2, i3]
    have h3 : (s + 1) % 3 = 0 ∨ (s + 1) % 3 = 1 ∨ (s + 1) % 3 = 2 := by omega
    rcases h3 with e | e | e <;> simp only [e]
    · simp only [List.getD_cons_zero, beq_self_eq_true, if_true, beq_iff_eq, if_neg hab, if_neg hac]
      omega
    · simp only [List.getD_cons_succ, List.getD_cons_zero, beq_self_eq_true, if_true, beq_iff_eq, if_neg hab.symm, if_neg hbc]
      omega
    · simp only [List.getD_cons_succ, List.getD_cons_zero, beq_self_eq_true, if_true, beq_iff_eq, if_neg hac.symm, if_neg hbc.symm]
      omega

/-- **C126 (rotation).** A workload of a listed kind takes its three types of task in turn. Whatever its counter, three tasks in a row are one
of each type, and in any stretch of tasks no type occurs two times more than another. Every task has one of the three types. -/
theorem C126_rotation {name a b c : String} (h : taskTypes.lookup name = some [a, b, c]) (hab : a ≠ b) (hac : a ≠ c) (hbc : b ≠ c) (id : String) (s n : ℕ) :
    (∀ t ∈ [a, b, c], ((tasksFrom id name s 3).map FullTask.type).count t = 1) ∧
    (∀ t ∈ [a, b, c], ∀ u ∈ [a, b, c],
      ((tasksFrom id name s n).map FullTask.type).count t ≤ ((tasksFrom id name s n).map FullTask.type).count u + 1) ∧
    (∀ t ∈ tasksFrom id name s n, t.type ∈ [a, b, c] ∧ t.agentID = id) := by
  refine ⟨?_, ?_, ?_⟩
  · obtain ⟨h1, h2, h3⟩ := tasks_count h hab hac hbc id s 3
    intro t ht
    simp only [List.mem_cons, List.not_mem_nil, or_false] at ht
    rcases ht with rfl | rfl | rfl
    · rw [h1]; omega
    · rw [h2]; omega
    · rw [h3]; omega
  · obtain ⟨h1, h2, h3⟩ := tasks_count h hab hac hbc id s n
    intro t ht u hu
    simp only [List.mem_cons, List.not_mem_nil, or_false] at ht hu
    rcases ht with rfl | rfl | rfl <;> rcases hu with rfl | rfl | rfl <;> (try rw [h1]) <;> (try rw [h2]) <;> (try rw [h3]) <;> omega
  · intro t ht
    simp only [tasksFrom, List.mem_map] at ht
    obtain ⟨k, _, rfl⟩ := ht
    refine ⟨?_, rfl⟩
    rw [task_type h]
    have h3 : (k + 1) % 3 = 0 ∨ (k + 1) % 3 = 1 ∨ (k + 1) % 3 = 2 := by omega
    rcases h3 with e | e | e <;> simp [e]

/-- **C126 (labels).** The tasks of a workload are numbered consecutively, in their IDs and in their payloads, so that no two between resets have
the same ID; and the payload names the kind and the type. The IDs are those of the model of task flow. -/
theorem C126_labels (id name : String) (s n : ℕ) :
    (∀ k < n, ∃ t, (tasksFrom id name s n)[k]? = some t ∧ t.id = id ++ "-task-" ++ toString (s + k + 1) ∧
      t.payload = name ++ ": " ++ t.type ++ " #" ++ toString (s + k + 1)) ∧
    ((tasksFrom id name s n).map FullTask.id).Nodup ∧
    (∀ w : Workload, w.createTask.1.id = (createFullTask w.id name w.taskCounter).id) := by
  refine ⟨fun k hk => ?_, ?_, fun w => rfl⟩
  · refine ⟨createFullTask id name (s + k), ?_, rfl, rfl⟩
    simp [tasksFrom, hk]
  · rw [tasksFrom, List.map_map]
    refine List.Nodup.map ?_ (List.nodup_range')
    intro a b h
    have := (taskID_inj (a := id) (b := id) h).2
    omega

/-- The hypotheses are met by the first kind of the first goal; its first task is of the second type listed, because the counter is increased
before it is used. -/
example : taskTypes.lookup "DataETL" = some ["extract_records", "transform_dataset", "load_warehouse"] ∧
    (tasksFrom "agent-1" "DataETL" 0 4).map FullTask.type = ["transform_dataset", "load_warehouse", "extract_records", "transform_dataset"] ∧
    (tasksFrom "agent-1" "DataETL" 0 1).map FullTask.payload = ["DataETL: transform_dataset #1"] := by decide +kernel

/-! ### The list of agents -/

/-- The full claim: kinds that look the same in the list of agents are the same. -/
def C126_claim : Prop := ∀ (g : GoalType), ∀ k ∈ getWorkloadsForGoal g, ∀ l ∈ getWorkloadsForGoal g, shownKind k = shownKind l → k = l

/-- It is false: names are cut after eleven letters. -/
theorem C126_refuted : ¬ C126_claim := by
  intro h
  have := h 1 ("LoadBalancer1", "⚖️") (by decide +kernel) ("LoadBalancer2", "⚖️") (by decide +kernel) (by decide +kernel)
  exact absurd this (by decide +kernel)

/-- **C126 (list of agents), proved part.** Outside load distribution the list of agents tells all kinds apart. In load distribution the two load
balancers look the same, and so do the two cache servers; the other kinds are told apart. -/
theorem C126_list_partial (g : GoalType) :
    (g ≠ 1 → ∀ k ∈ getWorkloadsForGoal g, ∀ l ∈ getWorkloadsForGoal g, shownKind k = shownKind l → k = l) ∧
    (∀ k ∈ getWorkloadsForGoal 1, ∀ l ∈ getWorkloadsForGoal 1, shownKind k = shownKind l ↔ k = l ∨
      (k.1 ∈ ["LoadBalancer1", "LoadBalancer2"] ∧ l.1 ∈ ["LoadBalancer1", "LoadBalancer2"]) ∨
      (k.1 ∈ ["CacheServer1", "CacheServer2"] ∧ l.1 ∈ ["CacheServer1", "CacheServer2"])) := by
  refine ⟨fun hg => ?_, by decide +kernel⟩
  have h : ∀ k ∈ ([0, 2, 3, 4, 5, 6, 7] : List ℤ), ∀ a ∈ getWorkloadsForGoal k, ∀ b ∈ getWorkloadsForGoal k, shownKind a = shownKind b → a = b := by
    decide +kernel
  by_cases hm : g ∈ ([0, 2, 3, 4, 5, 6, 7] : List ℤ)
  · exact h g hm
  · have : goalWorkloads g = none := by
      unfold goalWorkloads
      split <;> first | rfl | (exfalso; apply hg; rfl) | (exfalso; apply hm; decide)
    have e : getWorkloadsForGoal g = getWorkloadsForGoal 0 := by
      unfold getWorkloadsForGoal
      rw [this]
      rfl
    rw [e]
    exact h 0 (by decide)

end Verif
