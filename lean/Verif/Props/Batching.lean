import Verif.Model.Batching
import Verif.Num.Real
import Mathlib.Algebra.BigOperators.Group.List.Basic
import Mathlib.Algebra.Order.BigOperators.Group.List
import Mathlib.Tactic.FieldSimp
import Mathlib.Tactic.Linarith
import Mathlib.Tactic.NormNum

/-!
# C69: splitting into API batches; C70: metrics
-/

set_option autoImplicit false
set_option linter.unusedSectionVars false

namespace Verif
open GoMath

/-! ### C69 -/

section
variable {T : Type}

theorem splitFrom_step (l : List T) (i : ℕ) (h : i < l.length) : splitFrom l i = (l.drop i).take 100 :: splitFrom l (i + 100) := by
  rw [splitFrom, if_pos h]
  dsimp only
  congr 1
  split_ifs with h1
  · rw [List.take_of_length_le (by simp), List.take_of_length_le (by simp; omega)]
  · rw [show i + 100 - i = 100 by omega]

theorem splitFrom_end (l : List T) (i : ℕ) (h : l.length ≤ i) : splitFrom l i = [] := by
  rw [splitFrom, if_neg (by omega)]

/-- Everything about the batches from index `i` on. -/
theorem splitFrom_spec (l : List T) (n i : ℕ) (hn : l.length ≤ i + n) :
    (splitFrom l i).flatten = l.drop i ∧ (∀ b ∈ splitFrom l i, b ≠ [] ∧ b.length ≤ 100) ∧
    (∀ b ∈ (splitFrom l i).dropLast, b.length = 100) := by
  induction n using Nat.strong_induction_on generalizing i with
  | _ n ih =>
    rcases Nat.lt_or_ge i l.length with h | h
    · rw [splitFrom_step l i h]
      obtain ⟨h1, h2, h3⟩ := ih (n - 100) (by omega) (i + 100) (by omega)
      refine ⟨?_, ?_, ?_⟩
      · rw [List.flatten_cons, h1, ← List.drop_drop, List.take_append_drop]
      · intro b hb
        rcases List.mem_cons.1 hb with rfl | hb
        · refine ⟨fun e => ?_, by simp⟩
          have := congrArg List.length e
          simp at this
          omega
        · exact h2 b hb
      · intro b hb
        rcases Nat.lt_or_ge (i + 100) l.length with h' | h'
        · have hne : splitFrom l (i + 100) ≠ [] := by rw [splitFrom_step l _ h']; simp
          rw [List.dropLast_cons_of_ne_nil hne] at hb
          rcases List.mem_cons.1 hb with rfl | hb
          · simp; omega
          · exact h3 b hb
        · rw [splitFrom_end l _ h'] at hb
          simp at hb
    · rw [splitFrom_end l i h]
      simp [List.drop_of_length_le h]

/-- **C69.** The batches joined together are the tasks, in order; no batch is empty or has more than 100 tasks; every batch but the last is
full. -/
theorem C69_split (l : List T) :
    (splitIntoAPIBatches l).flatten = l ∧ (∀ b ∈ splitIntoAPIBatches l, b ≠ [] ∧ b.length ≤ 100) ∧
    (∀ b ∈ (splitIntoAPIBatches l).dropLast, b.length = 100) := by
  have := splitFrom_spec l l.length 0 (by omega)
  rwa [List.drop_zero] at this

theorem sum_le_of_forall (L : List (List T)) (k : ℕ) (h : ∀ b ∈ L, b.length ≤ k) : L.flatten.length ≤ L.length * k := by
  induction L with
  | nil => simp
  | cons b L ih =>
    have h1 := h b List.mem_cons_self
    have h2 := ih fun c hc => h c (List.mem_cons_of_mem _ hc)
    rw [List.flatten_cons, List.length_append, List.length_cons, Nat.add_mul]
    omega

theorem sum_eq_of_forall (L : List (List T)) (k : ℕ) (h : ∀ b ∈ L, b.length = k) : L.flatten.length = L.length * k := by
  induction L with
  | nil => simp
  | cons b L ih =>
    have h1 := h b List.mem_cons_self
    have h2 := ih fun c hc => h c (List.mem_cons_of_mem _ hc)
    rw [List.flatten_cons, List.length_append, List.length_cons, Nat.add_mul]
    omega

/-- **C69, the number of batches** is the number of tasks divided by 100, rounded up. -/
theorem C69_count (l : List T) : (splitIntoAPIBatches l).length = (l.length + 99) / 100 := by
  obtain ⟨h1, h2, h3⟩ := C69_split l
  have hu := sum_le_of_forall _ 100 fun b hb => (h2 b hb).2
  rw [h1] at hu
  rcases hL : splitIntoAPIBatches l with _ | ⟨b, L⟩
  · rw [hL] at h1
    rw [← h1]
    simp
  · have hne : splitIntoAPIBatches l ≠ [] := by rw [hL]; simp
    have hl := List.dropLast_append_getLast hne
    have hlast := h2 _ (List.getLast_mem hne)
    have hpos : 0 < ((splitIntoAPIBatches l).getLast hne).length := List.length_pos_iff.2 hlast.1
    have he := sum_eq_of_forall _ 100 h3
    have hsum : l.length = (splitIntoAPIBatches l).dropLast.length * 100 + ((splitIntoAPIBatches l).getLast hne).length := by
      conv_lhs => rw [← h1, ← hl, List.flatten_append, List.length_append, he]
      simp
    have hd : (splitIntoAPIBatches l).dropLast.length + 1 = (splitIntoAPIBatches l).length := by
      have := congrArg List.length hl
      simpa using this
    rw [← hL]
    omega

/-- **C69, the fewest possible.** Every way of distributing the tasks over batches of at most 100 needs at least as many batches. -/
theorem C69_least (l : List T) (other : List (List T)) (h : other.flatten.Perm l) (hs : ∀ b ∈ other, b.length ≤ 100) :
    (splitIntoAPIBatches l).length ≤ other.length := by
  have := sum_le_of_forall other 100 hs
  rw [h.length_eq] at this
  rw [C69_count]
  omega

example : (splitIntoAPIBatches (List.range 250)).map List.length = [100, 100, 50] := by
  unfold splitIntoAPIBatches
  rw [splitFrom_step _ _ (by simp), splitFrom_step _ _ (by simp), splitFrom_step _ _ (by simp), splitFrom_end _ _ (by simp)]
  simp

end

/-! ### C70 -/

/-- What happens to a metrics collector. -/
inductive Spec.MetricsOp (α : Type) where
  /-- an API batch of `size` tasks is processed -/
  | batch (size : ℕ)
  /-- a coherence is recorded -/
  | coherence (now : ℤ) (c : α)
  | reset (now : ℤ)

section
variable {α : Type} [Zero α] [One α] [Add α] [Sub α] [Mul α] [Div α] [Neg α] [LT α] [LE α]
  [DecidableLT α] [DecidableLE α] [BEq α] [OfScientific α] [GoMath α]

/-- The operation on the collector; a batch is processed as `processCollectedBatch` does it. -/
def Spec.MetricsOp.apply (m : Metrics α) : Spec.MetricsOp α → Metrics α
  | .batch size => m.processBatch (List.replicate size ())
  | .coherence now c => m.updateCoherence now c
  | .reset now => m.reset now

/-- The sizes of the batches since the last reset, in order. -/
def Spec.sizes : List (Spec.MetricsOp α) → List ℕ
  | [] => []
  | .batch size :: rest => if rest.any (fun | .reset _ => true | _ => false) then Spec.sizes rest else size :: Spec.sizes rest
  | .coherence _ _ :: rest | .reset _ :: rest => Spec.sizes rest

/-- The coherences since the last reset, with their times, in order. -/
def Spec.coherences : List (Spec.MetricsOp α) → List (ℤ × α)
  | [] => []
  | .coherence now c :: rest => if rest.any (fun | .reset _ => true | _ => false) then Spec.coherences rest else (now, c) :: Spec.coherences rest
  | .batch _ :: rest | .reset _ :: rest => Spec.coherences rest

theorem any_snoc (l : List (Spec.MetricsOp α)) (op : Spec.MetricsOp α) :
    (l ++ [op]).any (fun | .reset _ => true | _ => false) = (l.any (fun | .reset _ => true | _ => false) || (match op with | .reset _ => true | _ => false)) := by
  rw [List.any_append]
  simp

theorem sizes_snoc (l : List (Spec.MetricsOp α)) (op : Spec.MetricsOp α) :
    Spec.sizes (l ++ [op]) = match op with
      | .batch n => Spec.sizes l ++ [n]
      | .coherence _ _ => Spec.sizes l
      | .reset _ => [] := by
  induction l with
  | nil => cases op <;> simp [Spec.sizes]
  | cons a l ih =>
    cases a with
    | batch n =>
      rw [List.cons_append, Spec.sizes, Spec.sizes, any_snoc, ih]
      cases op <;> simp <;> split_ifs <;> simp
    | coherence n c => rw [List.cons_append, Spec.sizes, Spec.sizes, ih]
    | reset n => rw [List.cons_append, Spec.sizes, Spec.sizes, ih]

theorem coherences_snoc (l : List (Spec.MetricsOp α)) (op : Spec.MetricsOp α) :
    Spec.coherences (l ++ [op]) = match op with
      | .batch _ => Spec.coherences l
      | .coherence n c => Spec.coherences l ++ [(n, c)]
      | .reset _ => [] := by
  induction l with
  | nil => cases op <;> simp [Spec.coherences]
  | cons a l ih =>
    cases a with
    | coherence n c =>
      rw [List.cons_append, Spec.coherences, Spec.coherences, any_snoc, ih]
      cases op <;> simp <;> split_ifs <;> simp
    | batch n => rw [List.cons_append, Spec.coherences, Spec.coherences, ih]
    | reset n => rw [List.cons_append, Spec.coherences, Spec.coherences, ih]

/-- **C70, the counts.** After any sequence of operations the counts are those of the batches since the last reset. -/
theorem C70_counts (start : ℤ) (ops : List (Spec.MetricsOp α)) :
    let m := ops.foldl Spec.MetricsOp.apply (Metrics.new start)
    m.totalBatches = (Spec.sizes ops).length ∧ m.totalTasks = ((Spec.sizes ops).sum : ℕ) ∧ m.totalAPICalls = ((Spec.sizes ops).sum : ℕ) ∧
    m.batchSizes = (Spec.sizes ops).map (fun n : ℕ => (n : ℤ)) ∧
    (∀ n ∈ Spec.sizes ops, (n : ℤ) ≤ m.largestBatch) ∧ (m.largestBatch = 0 ∨ ∃ n ∈ Spec.sizes ops, (n : ℤ) = m.largestBatch) := by
  dsimp only
  induction ops using List.reverseRecOn with
  | nil => simp [Spec.sizes, Metrics.new]
  | append_singleton ops op ih =>
    rw [List.foldl_append, List.foldl_cons, List.foldl_nil, sizes_snoc]
    generalize ops.foldl Spec.MetricsOp.apply (Metrics.new start) = m at *
    obtain ⟨h1, h2, h3, h4, h5, h6⟩ := ih
    cases op with
    | batch n =>
      unfold Spec.MetricsOp.apply Metrics.processBatch Metrics.recordBatch
      simp only [List.length_replicate, List.length_append, List.length_cons, List.length_nil, List.sum_append, List.sum_cons, List.sum_nil,
        List.map_append, List.map_cons, List.map_nil, h1, h2, h3, h4]
      refine ⟨by push_cast; ring, by push_cast; ring, by push_cast; ring, trivial, ?_, ?_⟩
      · intro k hk
        rcases List.mem_append.1 hk with hk | hk
        · have := h5 k hk
          split_ifs <;> omega
        · obtain rfl : k = n := by simpa using hk
          split_ifs <;> omega
      · split_ifs with hc
        · exact .inr ⟨n, by simp, rfl⟩
        · rcases h6 with h6 | ⟨k, hk, e⟩
          · exact .inl h6
          · exact .inr ⟨k, List.mem_append_left _ hk, e⟩
    | coherence n c =>
      unfold Spec.MetricsOp.apply Metrics.updateCoherence
      dsimp only
      split_ifs <;> exact ⟨h1, h2, h3, h4, h5, h6⟩
    | reset n => simp [Spec.MetricsOp.apply, Metrics.reset]

/-- A batch of `n` tasks counts in the bucket with this number. -/
def Spec.bucket (n : ℤ) : ℕ := if n ≤ 10 then 0 else if n ≤ 25 then 1 else if n ≤ 50 then 2 else if n ≤ 75 then 3 else 4

/-- **C70, the distribution.** Every batch is counted in exactly one bucket, the one of its size. -/
theorem C70_distribution (m : Metrics α) :
    m.distribution = (((m.batchSizes.countP fun n => decide (Spec.bucket n = 0) : ℕ) : ℤ), ((m.batchSizes.countP fun n => decide (Spec.bucket n = 1) : ℕ) : ℤ),
      ((m.batchSizes.countP fun n => decide (Spec.bucket n = 2) : ℕ) : ℤ), ((m.batchSizes.countP fun n => decide (Spec.bucket n = 3) : ℕ) : ℤ),
      ((m.batchSizes.countP fun n => decide (Spec.bucket n = 4) : ℕ) : ℤ)) := by
  unfold Metrics.distribution
  generalize m.batchSizes = l
  induction l using List.reverseRecOn with
  | nil => rfl
  | append_singleton l n ih =>
    rw [List.foldl_append, List.foldl_cons, List.foldl_nil, ih]
    simp only [List.countP_append, List.countP_cons, List.countP_nil]
    unfold distributionStep Spec.bucket
    dsimp only
    by_cases h1 : n ≤ 10
    · simp [h1]
    · by_cases h2 : n ≤ 25
      · simp [h1, h2]
      · by_cases h3 : n ≤ 50
        · simp [h1, h2, h3]
        · by_cases h4 : n ≤ 75
          · simp [h1, h2, h3, h4]
          · simp [h1, h2, h3, h4]

/-- **C70, processing collected tasks** is processing one batch for every group of 100 tasks and one for the rest. -/
theorem C70_process {T : Type} (m : Metrics α) (tasks : List T) :
    ∃ L : List ℕ, m.processCollected tasks = (L.map Spec.MetricsOp.batch).foldl Spec.MetricsOp.apply m ∧ L.sum = tasks.length ∧
      L.length = (tasks.length + 99) / 100 ∧ ∀ n ∈ L, 1 ≤ n ∧ n ≤ 100 := by
  refine ⟨(splitIntoAPIBatches tasks).map List.length, ?_, ?_, ?_, ?_⟩
  · unfold Metrics.processCollected
    split_ifs with h
    · unfold splitIntoAPIBatches
      rw [splitFrom_end _ _ (by omega)]
      rfl
    · generalize splitIntoAPIBatches tasks = L
      induction L generalizing m with
      | nil => rfl
      | cons b L ih =>
        simp only [List.map_cons, List.foldl_cons]
        rw [ih]
        congr 1
        simp [Spec.MetricsOp.apply, Metrics.processBatch]
  · rw [← List.length_flatten, (C69_split tasks).1]
  · rw [List.length_map, C69_count]
  · intro n hn
    obtain ⟨b, hb, rfl⟩ := List.mem_map.1 hn
    obtain ⟨h1, h2⟩ := (C69_split tasks).2.1 b hb
    exact ⟨List.length_pos_iff.2 h1, h2⟩

end

/-- **C70, costs and savings.** Over the reals, after any sequence of operations with batches of 1 to 100 tasks: the cost without
synchronisation is 0.03 per task and with it 0.015 per batch; the savings are at least half of the former; once there is a batch, the average
is tasks per batch and the percentage is between 50 and 99.5. -/
theorem C70_savings (start : ℤ) (ops : List (Spec.MetricsOp ℝ)) (h : ∀ n ∈ Spec.sizes ops, 1 ≤ n ∧ n ≤ 100) :
    let s := (ops.foldl Spec.MetricsOp.apply (Metrics.new start)).current
    let tasks : ℝ := ((Spec.sizes ops).sum : ℕ)
    let batches : ℝ := (Spec.sizes ops).length
    s.costWithoutSync = 0.03 * tasks ∧ s.costWithSync = 0.015 * batches ∧ s.totalSavings = 0.03 * tasks - 0.015 * batches ∧
    0.015 * tasks ≤ s.totalSavings ∧
    (Spec.sizes ops ≠ [] → s.averageBatchSize = tasks / batches ∧ 1 ≤ s.averageBatchSize ∧ s.averageBatchSize ≤ 100 ∧
      s.savingsPercent = 100 - 50 / s.averageBatchSize ∧ 50 ≤ s.savingsPercent ∧ s.savingsPercent ≤ 99.5) ∧
    (Spec.sizes ops = [] → s.averageBatchSize = 0 ∧ s.savingsPercent = 0) := by
  have hcost : ∀ ops : List (Spec.MetricsOp ℝ), (ops.foldl Spec.MetricsOp.apply (Metrics.new start)).costWithoutSync = 0.03 * ((Spec.sizes ops).sum : ℕ) ∧
      (ops.foldl Spec.MetricsOp.apply (Metrics.new start)).costWithSync = 0.015 * (Spec.sizes ops).length := by
    intro ops
    induction ops using List.reverseRecOn with
    | nil => simp [Spec.sizes, Metrics.new]
    | append_singleton ops op ih =>
      rw [List.foldl_append, List.foldl_cons, List.foldl_nil, sizes_snoc]
      generalize ops.foldl Spec.MetricsOp.apply (Metrics.new start) = m at *
      cases op with
      | batch n =>
        simp only [Spec.MetricsOp.apply, Metrics.processBatch, Metrics.recordBatch, ih.1, ih.2, List.length_replicate, ofInt_real,
          List.sum_append, List.sum_cons, List.sum_nil, List.length_append, List.length_cons, List.length_nil]
        constructor <;> push_cast <;> ring
      | coherence n c =>
        unfold Spec.MetricsOp.apply Metrics.updateCoherence
        dsimp only
        split_ifs <;> exact ih
      | reset n => simp [Spec.MetricsOp.apply, Metrics.reset]
  have hb : (Spec.sizes ops).length ≤ (Spec.sizes ops).sum ∧ (Spec.sizes ops).sum ≤ 100 * (Spec.sizes ops).length := by
    generalize Spec.sizes ops = l at h
    induction l with
    | nil => simp
    | cons a l ih =>
      have := h a List.mem_cons_self
      have := ih fun n hn => h n (List.mem_cons_of_mem _ hn)
      rw [List.sum_cons, List.length_cons]
      omega
  obtain ⟨c1, c2⟩ := hcost ops
  obtain ⟨n1, n2, -⟩ := C70_counts start ops
  dsimp only
  have b1 : ((Spec.sizes ops).length : ℝ) ≤ ((Spec.sizes ops).sum : ℕ) := by exact_mod_cast hb.1
  have b2 : (((Spec.sizes ops).sum : ℕ) : ℝ) ≤ 100 * (Spec.sizes ops).length := by exact_mod_cast hb.2
  unfold Metrics.current
  dsimp only
  rw [c1, c2, n1, n2]
  simp only [ofInt_real, Int.cast_natCast]
  have hz : Spec.sizes ops = [] ↔ (Spec.sizes ops).length = 0 := List.length_eq_zero_iff.symm
  rw [Ne, hz]
  generalize (((Spec.sizes ops).sum : ℕ) : ℝ) = t at *
  generalize (Spec.sizes ops).length = b at *
  have b0 : (0 : ℝ) ≤ b := Nat.cast_nonneg b
  refine ⟨trivial, trivial, trivial, by linarith, fun hne => ?_, fun he => ?_⟩
  · have hb1 : (1 : ℝ) ≤ b := by exact_mod_cast Nat.one_le_iff_ne_zero.2 hne
    have ht : 0 < t := by linarith
    rw [if_pos (by omega), if_pos (by linarith)]
    have e1 : 1 ≤ t / b := (one_le_div (by linarith)).2 b1
    have e2 : t / b ≤ 100 := (div_le_iff₀ (by linarith)).2 b2
    have e3 : (0.03 * t - 0.015 * b) / (0.03 * t) * 100.0 = 100 - 50 / (t / b) := by
      rw [show (100.0 : ℝ) = 100 by norm_num, show (0.03 : ℝ) = 3 / 100 by norm_num, show (0.015 : ℝ) = 15 / 1000 by norm_num]
      field_simp
      ring
    rw [e3]
    have e4 : 50 / (t / b) ≤ 50 := div_le_self (by norm_num) e1
    have e5 : 0.5 ≤ 50 / (t / b) := by rw [le_div_iff₀ (by linarith)]; linarith
    exact ⟨rfl, e1, e2, rfl, by linarith, by norm_num at e5 ⊢; linarith⟩
  · have : (b : ℝ) = 0 := by exact_mod_cast he
    have ht : t = 0 := by linarith
    rw [if_neg (by omega), if_neg (by rw [ht]; norm_num)]
    exact ⟨rfl, rfl⟩

/-- The time of the last reset, or of the creation. -/
def Spec.began {α : Type} (start : ℤ) : List (Spec.MetricsOp α) → ℤ
  | [] => start
  | .reset now :: rest => Spec.began now rest
  | .batch _ :: rest | .coherence _ _ :: rest => Spec.began start rest

/-- **C70, convergence time.** The time to converge is that of the first coherence of at least 0.7 since the last reset, minus the start;
0 if there is none. -/
theorem C70_converged {α : Type} [Zero α] [One α] [Add α] [Sub α] [Mul α] [Div α] [Neg α] [LT α] [LE α]
    [DecidableLT α] [DecidableLE α] [BEq α] [OfScientific α] [GoMath α] (start : ℤ) (ops : List (Spec.MetricsOp α)) :
    (ops.foldl Spec.MetricsOp.apply (Metrics.new start)).current.timeToConverge =
      match (Spec.coherences ops).find? (fun x => decide (x.2 ≥ 0.7)) with
      | some x => x.1 - Spec.began start ops
      | none => 0 := by
  have hbegan : ∀ (ops : List (Spec.MetricsOp α)) (m : Metrics α), (ops.foldl Spec.MetricsOp.apply m).startTime = Spec.began m.startTime ops := by
    intro ops
    induction ops with
    | nil => intro m; rfl
    | cons op ops ih =>
      intro m
      rw [List.foldl_cons, ih]
      cases op with
      | batch n => rfl
      | reset n => rfl
      | coherence n c =>
        unfold Spec.MetricsOp.apply Metrics.updateCoherence
        dsimp only
        split_ifs <;> rfl
  have key : (ops.foldl Spec.MetricsOp.apply (Metrics.new start)).convergedAt =
      ((Spec.coherences ops).find? (fun x => decide (x.2 ≥ 0.7))).map Prod.fst := by
    induction ops using List.reverseRecOn with
    | nil => rfl
    | append_singleton ops op ih =>
      rw [List.foldl_append, List.foldl_cons, List.foldl_nil, coherences_snoc]
      generalize ops.foldl Spec.MetricsOp.apply (Metrics.new start) = m at *
      cases op with
      | batch n => exact ih
      | reset n => rfl
      | coherence n c =>
        dsimp only
        rw [List.find?_append]
        have hs : (Spec.MetricsOp.apply m (.coherence n c)).convergedAt = if c ≥ 0.7 ∧ m.convergedAt = none then some n else m.convergedAt := by
          unfold Spec.MetricsOp.apply Metrics.updateCoherence
          dsimp only
          by_cases hp : c > m.peakCoherence
          · simp only [if_pos hp]
            by_cases hc : c ≥ 0.7 ∧ m.convergedAt = none
            · simp only [if_pos hc]
            · simp only [if_neg hc]
          · simp only [if_neg hp]
            by_cases hc : c ≥ 0.7 ∧ m.convergedAt = none
            · simp only [if_pos hc]
            · simp only [if_neg hc]
        rw [hs, ih]
        cases hf : (Spec.coherences ops).find? (fun x => decide (x.2 ≥ 0.7)) with
        | some x => simp
        | none =>
          simp only [Option.map_none, and_true, Option.none_or]
          by_cases hc : c ≥ 0.7
          · rw [if_pos hc, List.find?_cons_of_pos (by simpa using hc)]; rfl
          · rw [if_neg hc, List.find?_cons_of_neg (by simpa using hc)]; rfl
  have hb := hbegan ops (Metrics.new start)
  unfold Metrics.current
  dsimp only
  rw [key, hb]
  cases (Spec.coherences ops).find? (fun x => decide (x.2 ≥ 0.7)) <;> rfl

/-- **C70, the peak** is the largest coherence since the last reset (0 if none is positive). -/
theorem C70_peak (start : ℤ) (ops : List (Spec.MetricsOp ℝ)) :
    let p := (ops.foldl Spec.MetricsOp.apply (Metrics.new start)).current.peakCoherence
    0 ≤ p ∧ (∀ x ∈ Spec.coherences ops, x.2 ≤ p) ∧ (p = 0 ∨ ∃ x ∈ Spec.coherences ops, x.2 = p) := by
  unfold Metrics.current
  dsimp only
  induction ops using List.reverseRecOn with
  | nil => simp [Metrics.new, Spec.coherences]
  | append_singleton ops op ih =>
    rw [List.foldl_append, List.foldl_cons, List.foldl_nil, coherences_snoc]
    generalize ops.foldl Spec.MetricsOp.apply (Metrics.new start) = m at *
    cases op with
    | batch n => exact ih
    | reset n => simp [Spec.MetricsOp.apply, Metrics.reset]
    | coherence n c =>
      dsimp only
      have hs : (Spec.MetricsOp.apply m (.coherence n c)).peakCoherence = if c > m.peakCoherence then c else m.peakCoherence := by
        unfold Spec.MetricsOp.apply Metrics.updateCoherence
        dsimp only
        split_ifs <;> rfl
      obtain ⟨h1, h2, h3⟩ := ih
      rw [hs]
      split_ifs with hc
      · refine ⟨h1.trans hc.le, fun x hx => ?_, .inr ⟨(n, c), by simp, rfl⟩⟩
        rcases List.mem_append.1 hx with hx | hx
        · exact (h2 x hx).trans hc.le
        · obtain rfl : x = (n, c) := by simpa using hx
          exact le_rfl
      · refine ⟨h1, fun x hx => ?_, ?_⟩
        · rcases List.mem_append.1 hx with hx | hx
          · exact h2 x hx
          · obtain rfl : x = (n, c) := by simpa using hx
            exact not_lt.1 hc
        · rcases h3 with h3 | ⟨x, hx, e⟩
          · exact .inl h3
          · exact .inr ⟨x, List.mem_append_left _ hx, e⟩

example : Spec.sizes ([.batch 7, .reset 3, .batch 20, .coherence 4 0.5, .coherence 5 0.75, .batch 100] : List (Spec.MetricsOp ℝ)) = [20, 100] ∧
    Spec.coherences ([.batch 7, .coherence 2 0.9, .reset 3, .coherence 4 0.5, .coherence 5 0.75] : List (Spec.MetricsOp ℝ)) = [(4, 0.5), (5, 0.75)] := by
  constructor <;> simp [Spec.sizes, Spec.coherences]

end Verif
