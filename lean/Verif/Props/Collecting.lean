import Verif.Props.TaskFlow
import Verif.Model.Collecting

/-! # What the metrics panel says about tasks being collected (C159) -/

set_option autoImplicit false

namespace Verif
open Spec

/-- The tasks that have left their agents and are not yet in an API batch: those in the queue, and those with the consumer while it collects. -/
def Spec.underway (s : BatchSys) : List SimTask :=
  s.queue.flatten ++ match s.consumer with
    | .collecting tasks => tasks
    | _ => []

/-- **C159, the full claim.** The panel shows how many tasks are being collected. -/
def C159_claim : Prop := ∀ (ids : List String) (l : List (BatchMove × BatchNote)) (s : BatchSys), BatchRun (BatchSys.init ids) l s →
  s.shownCollecting = (underway s).length

theorem length_le_flatten {β : Type} (q : List (List β)) (h : ∀ b ∈ q, b ≠ []) :
    q.length ≤ q.flatten.length ∧ (q.length = q.flatten.length ↔ ∀ b ∈ q, b.length = 1) := by
  induction q with
  | nil => simp
  | cons b q ih =>
    obtain ⟨i1, i2⟩ := ih (fun x hx => h x (by simp [hx]))
    have hb : 1 ≤ b.length := List.length_pos_iff.2 (h b (by simp))
    simp only [List.length_cons, List.flatten_cons, List.length_append, List.forall_mem_cons]
    refine ⟨by omega, ?_⟩
    rw [← i2]
    omega

/-- **C159 (what is shown).** In every reachable state the figure is at most the number of tasks underway and at most 100, and it is positive exactly if tasks are in the
queue. It is the number of tasks underway exactly if every batch in the queue has one task and the consumer has collected none. What the full claim has and this has not:
batches of several tasks, and the tasks that the consumer holds. -/
theorem C159_shown_partial {ids : List String} {l : List (BatchMove × BatchNote)} {s : BatchSys} (h : BatchRun (BatchSys.init ids) l s) :
    s.shownCollecting ≤ (underway s).length ∧ s.shownCollecting ≤ 100 ∧ (0 < s.shownCollecting ↔ ∃ b ∈ s.queue, ∃ t, t ∈ b) ∧
    (s.shownCollecting = (underway s).length ↔ (∀ b ∈ s.queue, b.length = 1) ∧ ∀ tasks, s.consumer = .collecting tasks → tasks = []) := by
  obtain ⟨h1, h2, -⟩ := C71_limits h
  obtain ⟨k1, k2⟩ := length_le_flatten s.queue h2
  unfold BatchSys.shownCollecting underway
  rw [List.length_append]
  refine ⟨by omega, h1, ?_, ?_⟩
  · constructor
    · intro hp
      obtain ⟨b, hb⟩ := List.exists_mem_of_length_pos hp
      exact ⟨b, hb, List.exists_mem_of_ne_nil _ (h2 b hb)⟩
    · rintro ⟨b, hb, -⟩
      exact List.length_pos_of_mem hb
  · rw [← k2]
    cases hc : s.consumer with
    | collecting tasks =>
      simp only [Consumer.collecting.injEq, forall_eq']
      rw [← List.length_eq_zero_iff]
      omega
    | waiting => simp
    | processing b => simp
    | updating b => simp

theorem batchRun_of_list (ms : List BatchMove) (s₀ : BatchSys) (l₀ : List (BatchMove × BatchNote)) (s : BatchSys) (h : BatchRun s₀ l₀ s) (u : BatchSys)
    (e : ms.foldlM (fun (t : BatchSys) m => (t.step m).map Prod.fst) s = some u) : ∃ l, BatchRun s₀ l u := by
  induction ms generalizing s l₀ with
  | nil => cases e; exact ⟨_, h⟩
  | cons m ms ih =>
    rw [List.foldlM_cons] at e
    cases hs : s.step m with
    | none => rw [hs] at e; cases e
    | some r =>
      obtain ⟨t, n⟩ := r
      rw [hs] at e
      exact ih _ t (.tail h hs) e

/-- An agent that sends two tasks at once. -/
def twoAtOnce : List BatchMove := [.tick 0 2, .create 0, .append 0, .create 0, .append 0, .poll 0, .send 0]

/-- The claim is false: two tasks in one batch are shown as one. -/
theorem C159_refuted : ¬ C159_claim := fun h => by
  obtain ⟨u, hu, h1, h2⟩ : ∃ u, twoAtOnce.foldlM (fun (t : BatchSys) m => (t.step m).map Prod.fst) (BatchSys.init ["a"]) = some u ∧
      u.shownCollecting = 1 ∧ (underway u).length = 2 := ⟨_, rfl, rfl, rfl⟩
  obtain ⟨l, hl⟩ := batchRun_of_list twoAtOnce _ _ _ (.refl _) u hu
  have := h _ _ _ hl
  omega

/-- And tasks that the consumer has taken are not shown at all. -/
theorem C159_taken : ∃ l s, BatchRun (BatchSys.init ["a"]) l s ∧ s.shownCollecting = 0 ∧ (underway s).length = 2 := by
  obtain ⟨u, hu, h1, h2⟩ : ∃ u, (twoAtOnce ++ [BatchMove.receive]).foldlM (fun (t : BatchSys) m => (t.step m).map Prod.fst) (BatchSys.init ["a"]) = some u ∧
      u.shownCollecting = 0 ∧ (underway u).length = 2 := ⟨_, rfl, rfl, rfl⟩
  obtain ⟨l, hl⟩ := batchRun_of_list (twoAtOnce ++ [BatchMove.receive]) _ _ _ (.refl _) u hu
  exact ⟨l, u, hl, h1, h2⟩

/-- **C159 (the estimate).** The estimate of the batch manager is zero exactly if no task is in the queue. Otherwise it need not be near the number of tasks there: for one
batch of two tasks it is ten. -/
theorem C159_estimate :
    (∀ (ids : List String) (l : List (BatchMove × BatchNote)) (s : BatchSys), BatchRun (BatchSys.init ids) l s → (s.currentBatchSize = 0 ↔ ∀ t, t ∉ s.queue.flatten)) ∧
    ∃ l s, BatchRun (BatchSys.init ["a"]) l s ∧ s.currentBatchSize = 10 ∧ s.queue.flatten.length = 2 := by
  refine ⟨fun ids l s h => ?_, ?_⟩
  · have h2 := (C71_limits h).2.1
    unfold BatchSys.currentBatchSize
    constructor
    · intro e t ht
      have : s.queue = [] := List.length_eq_zero_iff.1 (by omega)
      rw [this] at ht
      simp at ht
    · intro e
      rcases hq : s.queue with _ | ⟨b, q⟩
      · rfl
      · obtain ⟨t, ht⟩ := List.exists_mem_of_ne_nil _ (h2 b (by simp [hq]))
        exact absurd (List.mem_flatten.2 ⟨b, by simp [hq], ht⟩) (e t)
  · obtain ⟨u, hu, h1, h2⟩ : ∃ u, twoAtOnce.foldlM (fun (t : BatchSys) m => (t.step m).map Prod.fst) (BatchSys.init ["a"]) = some u ∧
        u.currentBatchSize = 10 ∧ u.queue.flatten.length = 2 := ⟨_, rfl, rfl, rfl⟩
    obtain ⟨l, hl⟩ := batchRun_of_list twoAtOnce _ _ _ (.refl _) u hu
    exact ⟨l, u, hl, h1, h2⟩

/-- Reachable states in which the figure is below the number of tasks, as `C159_shown_partial` says it can be: the batch in the queue has two. -/
example : ∃ l s, BatchRun (BatchSys.init ["a"]) l s ∧ s.shownCollecting < (underway s).length ∧ ¬ ∀ b ∈ s.queue, b.length = 1 := by
  obtain ⟨u, hu, h1, h2⟩ : ∃ u, twoAtOnce.foldlM (fun (t : BatchSys) m => (t.step m).map Prod.fst) (BatchSys.init ["a"]) = some u ∧
      u.shownCollecting = 1 ∧ (underway u).length = 2 := ⟨_, rfl, rfl, rfl⟩
  obtain ⟨l, hl⟩ := batchRun_of_list twoAtOnce _ _ _ (.refl _) u hu
  refine ⟨l, u, hl, by omega, fun hb => ?_⟩
  obtain ⟨u', hu', hq⟩ : ∃ u', twoAtOnce.foldlM (fun (t : BatchSys) m => (t.step m).map Prod.fst) (BatchSys.init ["a"]) = some u' ∧
      ∃ b ∈ u'.queue, b.length = 2 := ⟨_, rfl, _, List.mem_cons_self .., rfl⟩
  cases hu.symm.trans hu'
  obtain ⟨b, hm, hl2⟩ := hq
  have := hb b hm
  omega

end Verif
