import Verif.Model.Summary
import Verif.Props.TaskFlow
import Verif.Props.SimSmall

/-! # What the demo tells about batches (C127, C128) -/

set_option autoImplicit false
set_option linter.unusedSectionVars false

namespace Verif
open GoMath

/-- The sizes of the API batches recorded since the metrics were last reset. -/
def Spec.recordedSince : List StatMove → List ℕ → List ℕ
  | [], acc => acc
  | .record n :: l, acc => Spec.recordedSince l (acc ++ [n])
  | .resetMetrics _ :: l, _ => Spec.recordedSince l []
  | _ :: l, acc => Spec.recordedSince l acc

/-- The time and size of the last API batch noted since the batch manager was last reset. -/
def Spec.lastNoted : List StatMove → Option (ℤ × ℕ) → Option (ℤ × ℕ)
  | [], o => o
  | .note t n :: l, _ => Spec.lastNoted l (some (t, n))
  | .resetManager :: l, _ => Spec.lastNoted l none
  | _ :: l, o => Spec.lastNoted l o

open Spec

section
variable {α : Type} [Zero α] [One α] [Add α] [Sub α] [Mul α] [Div α] [Neg α] [LT α] [LE α]
  [DecidableLT α] [DecidableLE α] [BEq α] [OfScientific α] [GoMath α]

theorem run_never (s : SimStats α) (moves : List StatMove) (h1 : s.metrics.peakCoherence = 0) (h2 : s.metrics.convergedAt = none) :
    (s.run moves).metrics.peakCoherence = 0 ∧ (s.run moves).metrics.convergedAt = none := by
  induction moves generalizing s with
  | nil => exact ⟨h1, h2⟩
  | cons m l ih =>
    refine ih (s.step m) ?_ ?_
    · cases m <;> simp [SimStats.step, Metrics.recordBatch, Metrics.reset, h1]
    · cases m <;> simp [SimStats.step, Metrics.recordBatch, Metrics.reset, h2]

/-- **C127 (peak).** Whatever happens, the peak coherence in the summary is 0 and so is the time to converge: nothing ever tells the metrics a
coherence. In real numbers and in floating point alike. -/
theorem C127_never (start : ℤ) (moves : List StatMove) (phases : List α) :
    (statistics ((SimStats.new (α := α) start).run moves).metrics phases).peakCoherence = 0 ∧
    (statistics ((SimStats.new (α := α) start).run moves).metrics phases).timeToConverge = 0 := by
  obtain ⟨h1, h2⟩ := run_never (SimStats.new (α := α) start) moves rfl rfl
  simp [statistics, Metrics.current, h1, h2]
end

/-- The full claim: the peak coherence in the summary is at least the final coherence. -/
def C127_claim : Prop :=
  ∀ (start : ℤ) (moves : List StatMove) (phases : List ℝ),
    (statistics ((SimStats.new (α := ℝ) start).run moves).metrics phases).finalCoherence ≤
      (statistics ((SimStats.new (α := ℝ) start).run moves).metrics phases).peakCoherence

/-- It is false, for every history of batches and every swarm with any coherence; for a synchronised swarm the summary shows 0 instead of 1. -/
theorem C127_refuted : ¬ C127_claim ∧
    (∀ (start : ℤ) (moves : List StatMove) (phases : List ℝ), measureCoherence phases = 1 →
      (statistics ((SimStats.new (α := ℝ) start).run moves).metrics phases).finalCoherence = 1 ∧
      (statistics ((SimStats.new (α := ℝ) start).run moves).metrics phases).peakCoherence = 0) := by
  have key : ∀ (start : ℤ) (moves : List StatMove) (phases : List ℝ), measureCoherence phases = 1 →
      (statistics ((SimStats.new (α := ℝ) start).run moves).metrics phases).finalCoherence = 1 ∧
      (statistics ((SimStats.new (α := ℝ) start).run moves).metrics phases).peakCoherence = 0 :=
    fun start moves phases h => ⟨h, (C127_never start moves phases).1⟩
  refine ⟨fun h => ?_, key⟩
  obtain ⟨h1, h2⟩ := key 0 [] (List.replicate (1 + 1) Real.pi) (opposite_synchronised 1)
  have := h 0 [] (List.replicate (1 + 1) Real.pi)
  rw [h1, h2] at this
  norm_num at this

theorem run_totals (s : SimStats ℝ) (moves : List StatMove) (acc : List ℕ)
    (h1 : s.metrics.totalAPICalls = (acc.sum : ℕ)) (h2 : s.metrics.totalBatches = (acc.length : ℕ)) (h3 : s.metrics.totalTasks = (acc.sum : ℕ))
    (h4 : s.metrics.costWithoutSync = 3 / 100 * (acc.sum : ℕ)) (h5 : s.metrics.costWithSync = 15 / 1000 * (acc.length : ℕ)) :
    (s.run moves).metrics.totalAPICalls = ((recordedSince moves acc).sum : ℕ) ∧
    (s.run moves).metrics.totalBatches = ((recordedSince moves acc).length : ℕ) ∧
    (s.run moves).metrics.totalTasks = ((recordedSince moves acc).sum : ℕ) ∧
    (s.run moves).metrics.costWithoutSync = 3 / 100 * ((recordedSince moves acc).sum : ℕ) ∧
    (s.run moves).metrics.costWithSync = 15 / 1000 * ((recordedSince moves acc).length : ℕ) := by
  induction moves generalizing s acc with
  | nil => exact ⟨h1, h2, h3, h4, h5⟩
  | cons m l ih =>
    cases m with
    | record n =>
      refine ih (s.step (.record n)) (acc ++ [n]) ?_ ?_ ?_ ?_ ?_
      · simp [SimStats.step, Metrics.recordBatch, h1]
      · simp [SimStats.step, Metrics.recordBatch, h2]
      · simp [SimStats.step, Metrics.recordBatch, h3]
      · simp [SimStats.step, Metrics.recordBatch, h4]
        ring
      · simp [SimStats.step, Metrics.recordBatch, h5]
        ring
    | note t n => exact ih (s.step (.note t n)) acc h1 h2 h3 h4 h5
    | resetMetrics t =>
      refine ih (s.step (.resetMetrics t)) [] ?_ ?_ ?_ ?_ ?_ <;> simp [SimStats.step, Metrics.reset]
    | resetManager => exact ih (s.step .resetManager) acc h1 h2 h3 h4 h5

/-- **C127 (totals).** The other figures of the summary are those of the API batches recorded since the last reset: the calls without batching are
their tasks, the batched calls their number, the average is tasks per batch, the savings are what the tasks would have cost one by one (3 cents
each) less a cent and a half per batch. -/
theorem C127_totals_partial (start : ℤ) (moves : List StatMove) (phases : List ℝ) :
    let f := statistics ((SimStats.new (α := ℝ) start).run moves).metrics phases
    let sizes := recordedSince moves []
    f.totalAPICalls = (sizes.sum : ℕ) ∧ f.totalBatches = (sizes.length : ℕ) ∧ f.averageBatchSize * (sizes.length : ℕ) = (sizes.sum : ℕ) ∧
    f.costWithoutSync = 3 / 100 * (sizes.sum : ℕ) ∧ f.costWithSync = 15 / 1000 * (sizes.length : ℕ) ∧
    f.totalSavings = f.costWithoutSync - f.costWithSync ∧ (0 < sizes.sum → f.savingsPercent * f.costWithoutSync = f.totalSavings * 100) ∧
    (sizes.sum = 0 → f.savingsPercent = 0) ∧ f.finalCoherence = measureCoherence phases := by
  intro f sizes
  obtain ⟨h1, h2, h3, h4, h5⟩ := run_totals (SimStats.new start) moves [] (by simp [SimStats.new, Metrics.new]) (by simp [SimStats.new, Metrics.new])
    (by simp [SimStats.new, Metrics.new]) (by simp [SimStats.new, Metrics.new]) (by simp [SimStats.new, Metrics.new])
  have hs : sizes = recordedSince moves [] := rfl
  have hp : f.savingsPercent = if f.costWithoutSync > 0 then (f.costWithoutSync - f.costWithSync) / f.costWithoutSync * 100.0 else (0 : ℝ) := rfl
  have ha : f.averageBatchSize = if ((SimStats.new (α := ℝ) start).run moves).metrics.totalBatches > 0 then
      ofInt ((SimStats.new (α := ℝ) start).run moves).metrics.totalTasks / ofInt ((SimStats.new (α := ℝ) start).run moves).metrics.totalBatches
      else (0 : ℝ) := rfl
  have hw : f.costWithoutSync = 3 / 100 * (sizes.sum : ℕ) := h4
  have hsv : f.totalSavings = f.costWithoutSync - f.costWithSync := rfl
  refine ⟨h1, h2, ?_, hw, h5, hsv, ?_, ?_, rfl⟩
  · rw [ha, h2, h3, ← hs]
    by_cases h0 : sizes.length = 0
    · have : sizes = [] := List.length_eq_zero_iff.mp h0
      simp [this]
    · rw [if_pos (by omega)]
      simp only [GoMath.ofInt_real, Int.cast_natCast]
      generalize sizes.sum = a at *
      generalize sizes.length = b at *
      have : (b : ℝ) ≠ 0 := by exact_mod_cast h0
      field_simp
  · intro h0
    have hpos : (0 : ℝ) < (sizes.sum : ℕ) := by exact_mod_cast h0
    have hw0 : f.costWithoutSync > 0 := by rw [hw]; positivity
    rw [hp, if_pos hw0, hsv]
    generalize f.costWithoutSync = a at *
    generalize f.costWithSync = b at *
    norm_num
    field_simp
  · intro h0
    rw [hp, hw, h0]
    simp

/-- A batch of five tasks, a reset, and batches of a hundred and of three. -/
example : recordedSince [.record 5, .note 1 5, .resetMetrics 2, .resetManager, .record 100, .note 3 100, .record 3] [] = [100, 3] ∧
    (statistics ((SimStats.new (α := ℝ) 0).run [.record 5, .note 1 5, .resetMetrics 2, .resetManager, .record 100, .note 3 100, .record 3]).metrics
      [0, 0]).totalAPICalls = 103 := by
  refine ⟨rfl, ?_⟩
  rw [(C127_totals_partial 0 _ [0, 0]).1]
  rfl

theorem run_pulse {α : Type} [Zero α] [One α] [Add α] [Sub α] [Mul α] [Div α] [Neg α] [LT α] [LE α]
    [DecidableLT α] [DecidableLE α] [BEq α] [OfScientific α] [GoMath α] (s : SimStats α) (moves : List StatMove) (o : Option (ℤ × ℕ))
    (h1 : s.lastBatchTime = o.map Prod.fst) (h2 : s.lastBatchSize = ((o.map Prod.snd).getD 0 : ℕ)) :
    (s.run moves).lastBatchTime = (lastNoted moves o).map Prod.fst ∧ (s.run moves).lastBatchSize = (((lastNoted moves o).map Prod.snd).getD 0 : ℕ) := by
  induction moves generalizing s o with
  | nil => exact ⟨h1, h2⟩
  | cons m l ih =>
    cases m with
    | record n => exact ih (s.step (.record n)) o h1 h2
    | note t n => exact ih (s.step (.note t n)) (some (t, n)) rfl rfl
    | resetMetrics t => exact ih (s.step (.resetMetrics t)) o h1 h2
    | resetManager => exact ih (s.step .resetManager) none rfl rfl

/-- **C127 (pulse).** `BATCH SENT` is shown exactly while the last API batch processed since the last reset is less than half a second old, with the
size of that batch. -/
theorem C127_pulse {α : Type} [Zero α] [One α] [Add α] [Sub α] [Mul α] [Div α] [Neg α] [LT α] [LE α]
    [DecidableLT α] [DecidableLE α] [BEq α] [OfScientific α] [GoMath α] (start now : ℤ) (moves : List StatMove) :
    (((SimStats.new (α := α) start).run moves).justSent now = true ↔ ∃ t n, lastNoted moves none = some (t, n) ∧ now < t + 500000000) ∧
    (∀ t n, lastNoted moves none = some (t, n) → ((SimStats.new (α := α) start).run moves).lastBatchSize = n) := by
  obtain ⟨h1, h2⟩ := run_pulse (SimStats.new (α := α) start) moves none rfl rfl
  refine ⟨?_, fun t n e => by rw [h2, e]; rfl⟩
  simp only [SimStats.justSent, h1, decide_eq_true_eq]
  cases e : lastNoted moves none with
  | none => simp [sinceTime, millisecond]
  | some x =>
    obtain ⟨t, n⟩ := x
    simp only [Option.map_some, sinceTime, millisecond, Option.some.injEq, Prod.mk.injEq]
    constructor
    · intro h
      exact ⟨t, n, ⟨rfl, rfl⟩, by omega⟩
    · rintro ⟨_, _, ⟨rfl, rfl⟩, h⟩
      omega

example : lastNoted [.note 7 5, .resetManager, .note 1000 100, .note 2000 3] none = some (2000, 3) := rfl

/-! ### Tasks being collected -/

/-- The full claim: the number shown as being collected is the number of tasks waiting in the queue, and `Waiting for tasks...` is shown exactly
when no task is in the queue or with the consumer. -/
def C128_claim : Prop :=
  ∀ (ids : List String) (s : BatchSys) (l : List (BatchMove × BatchNote)), BatchRun (BatchSys.init ids) l s →
    (∀ n, collectingShown s = some n → n = s.queue.flatten.length) ∧
    (collectingShown s = none ↔ s.queue.flatten = [] ∧ consumed s.consumer = [])

theorem two_queued : ∃ (s : BatchSys) (l : List (BatchMove × BatchNote)), BatchRun (BatchSys.init ["a"]) l s ∧ collectingShown s = some 1 ∧
    s.queue.flatten.length = 2 := by
  have r1 := (BatchRun.refl (BatchSys.init ["a"])).tail (moved_batch (.tick 0 2 _ rfl rfl rfl rfl))
  have r2 := r1.tail (moved_batch (.create 0 _ rfl Nat.two_pos rfl))
  have r3 := r2.tail (moved_batch (.append 0 _ _ rfl rfl))
  have r4 := r3.tail (moved_batch (.create 0 _ rfl Nat.one_pos rfl))
  have r5 := r4.tail (moved_batch (.append 0 _ _ rfl rfl))
  have r6 := r5.tail (moved_batch (.poll 0 _ rfl rfl rfl))
  have r7 := r6.tail (moved_batch (.send 0 _ rfl rfl (by simp) (by simp [BatchSys.init])))
  exact ⟨_, _, r7, rfl, rfl⟩

/-- Tasks are being collected while the display says that it is waiting for tasks. -/
theorem C128_hidden : ∃ (s : BatchSys) (l : List (BatchMove × BatchNote)), BatchRun (BatchSys.init ["a"]) l s ∧ collectingShown s = none ∧
    ∃ t, s.consumer = .collecting [t] := by
  have r1 := (BatchRun.refl (BatchSys.init ["a"])).tail (moved_batch (.tick 0 1 _ rfl rfl rfl rfl))
  have r2 := r1.tail (moved_batch (.create 0 _ rfl Nat.one_pos rfl))
  have r3 := r2.tail (moved_batch (.append 0 _ _ rfl rfl))
  have r4 := r3.tail (moved_batch (.poll 0 _ rfl rfl rfl))
  have r5 := r4.tail (moved_batch (.send 0 _ rfl rfl (by simp) (by simp [BatchSys.init])))
  have r6 := r5.tail (moved_batch (.receiveFirst _ _ rfl rfl))
  exact ⟨_, _, r6, rfl, _, rfl⟩

/-- It is false, in both parts. -/
theorem C128_refuted : ¬ C128_claim ∧
    ¬ (∀ (ids : List String) (s : BatchSys) (l : List (BatchMove × BatchNote)), BatchRun (BatchSys.init ids) l s →
      ∀ n, collectingShown s = some n → n = s.queue.flatten.length) := by
  obtain ⟨s, l, r, h1, h2⟩ := two_queued
  refine ⟨fun h => ?_, fun h => ?_⟩
  · have := (h ["a"] s l r).1 1 h1
    omega
  · have := h ["a"] s l r 1 h1
    omega

/-- **C128, proved part.** The number shown is the number of batches in the queue: between 1 and 100, and at most the number of tasks in them.
`Waiting for tasks...` is shown exactly when no task is in the queue. -/
theorem C128_shown_partial {ids : List String} {s : BatchSys} {l : List (BatchMove × BatchNote)} (h : BatchRun (BatchSys.init ids) l s) :
    (∀ n, collectingShown s = some n → 1 ≤ n ∧ n ≤ 100 ∧ n ≤ s.queue.flatten.length ∧ (n = s.queue.flatten.length ↔ ∀ b ∈ s.queue, b.length = 1)) ∧
    (collectingShown s = none ↔ s.queue.flatten = []) := by
  obtain ⟨h1, h2, -⟩ := C71_limits h
  have key : ∀ q : List (List SimTask), (∀ b ∈ q, b ≠ []) →
      q.length ≤ q.flatten.length ∧ (q.length = q.flatten.length ↔ ∀ b ∈ q, b.length = 1) := by
    intro q
    induction q with
    | nil => intro _; simp
    | cons b q ih =>
      intro hq
      obtain ⟨i1, i2⟩ := ih fun c hc => hq c (List.mem_cons_of_mem _ hc)
      have hb : 0 < b.length := List.length_pos_iff.mpr (hq b List.mem_cons_self)
      refine ⟨by simp only [List.length_cons, List.flatten_cons, List.length_append]; omega, ?_⟩
      simp only [List.length_cons, List.flatten_cons, List.length_append, List.mem_cons, forall_eq_or_imp]
      rw [← i2]
      omega
  obtain ⟨k1, k2⟩ := key s.queue h2
  refine ⟨fun n hn => ?_, ?_⟩
  · unfold collectingShown at hn
    split_ifs at hn with hl
    obtain rfl : s.queue.length = n := by simpa using hn
    exact ⟨hl, h1, k1, k2⟩
  · unfold collectingShown
    split_ifs with hl
    · constructor
      · intro e; simp at e
      · intro e
        rw [e] at k1
        simp at k1
        rw [k1] at hl
        simp at hl
    · have : s.queue = [] := List.length_eq_zero_iff.mp (by omega)
      simp [this]

end Verif
