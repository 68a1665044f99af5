import Verif.Props.SwarmConfig

/-!
# C26, C28: predefined swarm configurations
-/

set_option autoImplicit false
set_option linter.unusedSectionVars false

namespace Verif
open Spec

/-- A finite double between 0 and 1. -/
def F64.In01 (x : F64) : Prop := ∃ y h, x = F64.fin ⟨y, h⟩ ∧ 0 ≤ y ∧ y ≤ 1

theorem F64.in01_ofReal [Rounding] {x : ℝ} (h0 : 0 ≤ x) (h1 : x ≤ 1) : F64.In01 (F64.ofReal x) :=
  F64.ofReal_between isDouble_zero isDouble_one h0 h1

noncomputable instance [Rounding] [LibM] : UnitFacts F64 where
  in01 := F64.In01
  ok x h := by
    obtain ⟨y, hy, rfl, h0, h1⟩ := h
    simp [h0, h1]
  one := ⟨1, isDouble_one, rfl, by norm_num, by norm_num⟩
  lit m e h := F64.in01_ofReal (lit_nonneg m e) h
  mul x y hx hy := by
    obtain ⟨a, ha, rfl, a0, a1⟩ := hx
    obtain ⟨b, hb, rfl, b0, b1⟩ := hy
    rw [F64.mul_fin]
    exact F64.in01_ofReal (mul_nonneg a0 b0) (mul_le_one₀ a1 b0 b1)
  min_mul x m e m' e' hx h1 h2 := by
    have hl : F64.In01 (OfScientific.ofScientific m true e : F64) := F64.in01_ofReal (lit_nonneg m e) h1
    obtain ⟨a, ha, rfl, a0, a1⟩ := hx
    obtain ⟨k, hk, ek, k0, k1⟩ := F64.ofReal_between isDouble_zero (isDouble_ofNat 2 (by norm_num))
      (lit_nonneg m' e') h2
    have ek' : (OfScientific.ofScientific m' true e' : F64) = F64.fin ⟨k, hk⟩ := ek
    rw [ek', F64.mul_fin]
    obtain ⟨p, hp, ep, p0, p1⟩ := F64.ofReal_between (x := a * k) isDouble_zero (isDouble_ofNat 2 (by norm_num))
      (mul_nonneg a0 k0) (by nlinarith)
    rw [ep]
    unfold minFloat
    split_ifs with h
    · exact hl
    · obtain ⟨l, hl', el, l0, l1⟩ := hl
      rw [el] at h
      simp only [F64.lt_fin, not_lt] at h
      exact ⟨p, hp, rfl, p0, h.trans l1⟩
  ratio n hn := by
    rw [F64.hundred_eq]
    have hn' : (100 : ℝ) < n := by exact_mod_cast hn
    have e : (GoMath.ofInt n : F64) = F64.ofReal (n : ℝ) := rfl
    rw [e]
    by_cases hov : |(n : ℝ)| < overflow
    · have e2 : F64.ofReal (n : ℝ) = F64.fin ⟨Rounding.rnd n, Rounding.isDouble _⟩ := by
        unfold F64.ofReal; rw [if_pos hov]
      have h100 : (100 : ℝ) ≤ Rounding.rnd (n : ℝ) := le_rnd (isDouble_ofNat 100 (by norm_num)) hn'.le
      rw [e2, F64.div_fin (by simp only; linarith)]
      simp only
      exact F64.in01_ofReal (by positivity) (by rw [div_le_one (by linarith)]; exact h100)
    · have e2 : F64.ofReal (n : ℝ) = F64.pinf := by
        unfold F64.ofReal; rw [if_neg hov, if_pos (by linarith)]
      rw [e2]
      exact ⟨0, isDouble_zero, rfl, le_rfl, zero_le_one⟩
  pi_pos q h1 h2 := by
    have e : (GoMath.piMul q : F64) = F64.ofReal ((q : ℝ) * Real.pi) := rfl
    have h1' : (1 : ℝ) ≤ q := by exact_mod_cast h1
    have h2' : (q : ℝ) ≤ 3 := by exact_mod_cast h2
    obtain ⟨y, hy, ey, y0, y1⟩ := F64.ofReal_between (x := (q : ℝ) * Real.pi) isDouble_one
      (isDouble_ofNat 12 (by norm_num)) (by nlinarith [Real.pi_gt_three]) (by nlinarith [Real.pi_gt_three, Real.pi_le_four])
    rw [e, ey]
    simp only [F64.zero_def, F64.le_fin, not_le]; linarith

section
variable {α : Type} [Zero α] [One α] [Add α] [Sub α] [Mul α] [Div α] [Neg α] [LT α] [LE α] [DecidableLT α]
  [DecidableLE α] [BEq α] [OfScientific α] [GoMath α] [UnitFacts α]

theorem lit_ok {m e : ℕ} (h : (OfScientific.ofScientific m true e : ℝ) ≤ 1) :
    ¬ (OfScientific.ofScientific m true e : α) < 0 ∧ ¬ 1 < (OfScientific.ofScientific m true e : α) :=
  UnitFacts.ok _ (UnitFacts.lit m e h)

theorem one_ok : ¬ (1 : α) < 0 ∧ ¬ (1 : α) < 1 := UnitFacts.ok _ UnitFacts.one

/-- The parts of the predefined configuration that do not depend on arithmetic. -/
theorem autoScaleBase_in01 (n : ℤ) :
    UnitFacts.in01 (autoScaleBase n : SwarmConfig α).connectionProbability ∧
    UnitFacts.in01 (autoScaleBase n : SwarmConfig α).couplingStrength ∧
    UnitFacts.in01 (autoScaleBase n : SwarmConfig α).stubbornness ∧
    UnitFacts.in01 (autoScaleBase n : SwarmConfig α).basinStrength ∧
    UnitFacts.in01 (autoScaleBase n : SwarmConfig α).baseConfidence ∧
    UnitFacts.in01 (autoScaleBase n : SwarmConfig α).influenceDefault ∧
    ¬ (autoScaleBase n : SwarmConfig α).initialEnergy ≤ 0 ∧ ¬ (autoScaleBase n : SwarmConfig α).basinWidth ≤ 0 := by
  unfold autoScaleBase
  split_ifs <;> simp only [smallSwarmConfig, mediumSwarmConfig, defaultSwarmConfig] <;>
    refine ⟨?_, ?_, ?_, ?_, ?_, ?_, RepairFacts.not_hundred_le, ?_⟩ <;>
    first
    | exact UnitFacts.one
    | (exact UnitFacts.lit _ _ (by norm_num))
    | (exact UnitFacts.pi_pos _ (by norm_num) (by norm_num))

theorem autoScale_in01 (n : ℤ) :
    UnitFacts.in01 (autoScaleConfig n : SwarmConfig α).connectionProbability ∧
    UnitFacts.in01 (autoScaleConfig n : SwarmConfig α).couplingStrength ∧
    UnitFacts.in01 (autoScaleConfig n : SwarmConfig α).stubbornness ∧
    UnitFacts.in01 (autoScaleConfig n : SwarmConfig α).basinStrength ∧
    UnitFacts.in01 (autoScaleConfig n : SwarmConfig α).baseConfidence ∧
    UnitFacts.in01 (autoScaleConfig n : SwarmConfig α).influenceDefault ∧
    ¬ (autoScaleConfig n : SwarmConfig α).initialEnergy ≤ 0 ∧ ¬ (autoScaleConfig n : SwarmConfig α).basinWidth ≤ 0 := by
  obtain ⟨h1, h2, h3, h4, h5, h6, h7, h8⟩ := autoScaleBase_in01 (α := α) n
  unfold autoScaleConfig
  dsimp only
  split_ifs with h
  · exact ⟨h1, UnitFacts.mul _ _ h2 (UnitFacts.ratio n h), h3, h4, h5, h6, h7, h8⟩
  · exact ⟨h1, h2, h3, h4, h5, h6, h7, h8⟩

/-- The integer parameters of the predefined configuration. -/
theorem autoScale_ints (n : ℤ) (h1 : 1 ≤ n) :
    (autoScaleConfig n : SwarmConfig α).maxSwarmSize =
      (if n < 10 then 50 else if n < 20 then 100 else if n < 100 then 1000 else 1000000) ∧
    ((if n = 1 then (autoScaleConfig n : SwarmConfig α).maxNeighbors = 0 else
        1 ≤ (autoScaleConfig n : SwarmConfig α).maxNeighbors ∧
        (autoScaleConfig n : SwarmConfig α).maxNeighbors ≤ n - 1) ∧
     0 ≤ (autoScaleConfig n : SwarmConfig α).minNeighbors ∧
     (autoScaleConfig n : SwarmConfig α).minNeighbors ≤ (autoScaleConfig n : SwarmConfig α).maxNeighbors) ∧
    (0 < (autoScaleConfig n : SwarmConfig α).agentUpdateInterval ∧
     0 < (autoScaleConfig n : SwarmConfig α).monitoringInterval) ∧
    (0 ≤ (autoScaleConfig n : SwarmConfig α).maxConcurrentAgents ∧ 0 ≤ (autoScaleConfig n : SwarmConfig α).batchSize ∧
     0 ≤ (autoScaleConfig n : SwarmConfig α).workerPoolSize ∧
     0 ≤ (autoScaleConfig n : SwarmConfig α).connectionOptimThreshold) ∧
    ((autoScaleConfig n : SwarmConfig α).useBatchProcessing = true →
      (autoScaleConfig n : SwarmConfig α).batchSize ≠ 0 ∧ (autoScaleConfig n : SwarmConfig α).workerPoolSize ≠ 0) := by
  have e : ∀ k : ℤ, n.tdiv k = n / k := fun k => Int.tdiv_eq_ediv_of_nonneg (by omega)
  unfold autoScaleConfig autoScaleBase
  simp only [e]
  split_ifs <;> simp only [SwarmConfig.zero, smallSwarmConfig, mediumSwarmConfig, defaultSwarmConfig, minInt, maxInt,
    millisecond, decide_eq_true_eq] <;>
    refine ⟨?_, ⟨?_, ?_, ?_⟩, ⟨?_, ?_⟩, ⟨?_, ?_, ?_, ?_⟩, ?_⟩ <;> (try split_ifs) <;> first | trivial | (intro h; exact h.elim) | omega

theorem autoScale_valid_iff (n : ℤ) : (autoScaleConfig n : SwarmConfig α).validate n = [] ↔ 1 ≤ n ∧ n ≤ 1000000 := by
  rw [validate_eq_nil]
  obtain ⟨p1, p2, p3, p4, p5, p6, p7, p8⟩ := autoScale_in01 (α := α) n
  constructor
  · rintro ⟨⟨h1, h2⟩, -⟩
    have := (autoScale_ints (α := α) n (by omega)).1
    rw [this] at h2
    refine ⟨by omega, ?_⟩
    split_ifs at h2 <;> omega
  · rintro ⟨h1, h2⟩
    obtain ⟨a1, a2, ⟨a3, a4⟩, a5, a6⟩ := autoScale_ints (α := α) n h1
    refine ⟨⟨by omega, ?_⟩, ⟨UnitFacts.ok _ p1, UnitFacts.ok _ p2, UnitFacts.ok _ p3, UnitFacts.ok _ p4,
      UnitFacts.ok _ p5, UnitFacts.ok _ p6⟩, a2, ⟨p7, p8, a3, a4⟩, a5⟩
    rw [a1]; split_ifs <;> omega

theorem autoScale_normalize (n : ℤ) (h1 : 1 ≤ n) (h2 : n ≤ 1000000) :
    (autoScaleConfig n : SwarmConfig α).normalize n = autoScaleConfig n := by
  rw [normalize_of_valid _ _ ((autoScale_valid_iff n).2 ⟨h1, h2⟩)]
  obtain ⟨-, -, -, -, a6⟩ := autoScale_ints (α := α) n h1
  rw [if_neg (fun h => (a6 h.1).1 h.2), if_neg (fun h => (a6 h.1).2 h.2)]

/-- The batching configuration before the adjustment to the batch window. -/
theorem forBatching_fields (n w : ℤ) :
    let c : SwarmConfig α := forBatching n w
    (UnitFacts.in01 c.connectionProbability ∧ UnitFacts.in01 c.couplingStrength ∧ UnitFacts.in01 c.stubbornness ∧
     UnitFacts.in01 c.basinStrength ∧ UnitFacts.in01 c.baseConfidence ∧ UnitFacts.in01 c.influenceDefault ∧
     ¬ c.initialEnergy ≤ 0 ∧ ¬ c.basinWidth ≤ 0) ∧
    (if n ≤ 30 then
      c.maxSwarmSize = 0 ∧ c.maxNeighbors = min (n - 1) 15 ∧ c.minNeighbors = min (n.tdiv 2) 8 ∧
      c.agentUpdateInterval = 0 ∧ c.monitoringInterval = 0 ∧ c.maxConcurrentAgents = 0 ∧ c.batchSize = 0 ∧
      c.workerPoolSize = 0 ∧ c.connectionOptimThreshold = 0 ∧ c.useBatchProcessing = false
     else
      let d : SwarmConfig α := autoScaleConfig n
      c.maxSwarmSize = d.maxSwarmSize ∧ c.maxNeighbors = d.maxNeighbors ∧ c.minNeighbors = d.minNeighbors ∧
      c.agentUpdateInterval = d.agentUpdateInterval ∧ c.monitoringInterval = d.monitoringInterval ∧
      c.maxConcurrentAgents = d.maxConcurrentAgents ∧ c.batchSize = d.batchSize ∧
      c.workerPoolSize = d.workerPoolSize ∧ c.connectionOptimThreshold = d.connectionOptimThreshold ∧
      c.useBatchProcessing = d.useBatchProcessing) := by
  obtain ⟨h1, h2, h3, h4, h5, h6, h7, h8⟩ := autoScale_in01 (α := α) n
  unfold forBatching
  dsimp only
  by_cases hn : n ≤ 30
  · simp only [if_pos hn]
    split_ifs <;> (refine ⟨⟨?_, ?_, ?_, ?_, ?_, ?_, RepairFacts.not_hundred_le, ?_⟩, rfl, ?_, ?_, rfl, rfl, rfl, rfl, rfl,
      rfl, rfl⟩) <;>
    first
    | (exact UnitFacts.lit _ _ (by norm_num))
    | (exact UnitFacts.pi_pos _ (by norm_num) (by norm_num))
    | (simp only [minInt]; split_ifs <;> omega)
    | (exact UnitFacts.mul _ _ (UnitFacts.lit _ _ (by norm_num)) (UnitFacts.lit _ _ (by norm_num)))
    | (exact UnitFacts.min_mul _ _ _ _ _ (UnitFacts.lit _ _ (by norm_num)) (by norm_num) (by norm_num))
  · simp only [if_neg hn]
    have hcp : UnitFacts.in01 (minFloat (0.75 : α) ((autoScaleConfig n : SwarmConfig α).connectionProbability * 1.5)) :=
      UnitFacts.min_mul _ _ _ _ _ h1 (by norm_num) (by norm_num)
    have hcs : UnitFacts.in01 (minFloat (0.8 : α) ((autoScaleConfig n : SwarmConfig α).couplingStrength * 1.3)) :=
      UnitFacts.min_mul _ _ _ _ _ h2 (by norm_num) (by norm_num)
    have hst : UnitFacts.in01 ((autoScaleConfig n : SwarmConfig α).stubbornness * 0.2) :=
      UnitFacts.mul _ _ h3 (UnitFacts.lit _ _ (by norm_num))
    split_ifs <;> (refine ⟨⟨hcp, ?_, ?_, ?_, ?_, ?_, h7, ?_⟩, rfl, rfl, rfl, rfl, rfl, rfl, rfl, rfl, rfl, rfl⟩) <;>
    first
    | exact hst
    | exact hcs
    | (exact UnitFacts.lit _ _ (by norm_num))
    | (exact UnitFacts.pi_pos _ (by norm_num) (by norm_num))
    | (exact UnitFacts.mul _ _ hst (UnitFacts.lit _ _ (by norm_num)))
    | (exact UnitFacts.mul _ _ hcs (UnitFacts.lit _ _ (by norm_num)))
    | (exact UnitFacts.min_mul _ _ _ _ _ hcs (by norm_num) (by norm_num))

theorem forBatching_valid_iff (n w : ℤ) :
    (forBatching n w : SwarmConfig α).validate n = [] ↔ 31 ≤ n ∧ n ≤ 1000000 := by
  obtain ⟨⟨h1, h2, h3, h4, h5, h6, h7, h8⟩, hi⟩ := forBatching_fields (α := α) n w
  by_cases hn : n ≤ 30
  · rw [if_pos hn] at hi
    rw [validate_eq_nil]
    refine iff_of_false ?_ (by omega)
    rintro ⟨-, -, -, ⟨-, -, h, -⟩, -⟩
    omega
  · rw [if_neg hn] at hi
    obtain ⟨i1, i2, i3, i4, i5, i6, i7, i8, i9, -⟩ := hi
    have hd := autoScale_valid_iff (α := α) n
    rw [validate_eq_nil] at hd ⊢
    rw [i1, i2, i3, i4, i5, i6, i7, i8, i9]
    constructor
    · rintro ⟨a1, -, a3, ⟨-, -, a4, a4'⟩, a5⟩
      obtain ⟨p1, p2, p3, p4, p5, p6, p7, p8⟩ := autoScale_in01 (α := α) n
      have := hd.1 ⟨a1, ⟨UnitFacts.ok _ p1, UnitFacts.ok _ p2, UnitFacts.ok _ p3, UnitFacts.ok _ p4,
        UnitFacts.ok _ p5, UnitFacts.ok _ p6⟩, a3, ⟨p7, p8, a4, a4'⟩, a5⟩
      omega
    · intro h
      obtain ⟨a1, -, a3, ⟨-, -, a4, a4'⟩, a5⟩ := hd.2 (by omega)
      exact ⟨a1, ⟨UnitFacts.ok _ h1, UnitFacts.ok _ h2, UnitFacts.ok _ h3, UnitFacts.ok _ h4,
        UnitFacts.ok _ h5, UnitFacts.ok _ h6⟩, a3, ⟨h7, h8, a4, a4'⟩, a5⟩

end

/-! ## C26 Auto-scaled configurations -/

/-- **C26.** The configuration scaled for `n` agents passes validation for `n` exactly when 1 ≤ n ≤ 1,000,000 — in IEEE
doubles under every round-to-nearest mode. -/
theorem C26_valid_iff [Rounding] [LibM] (n : ℤ) :
    (autoScaleConfig n : SwarmConfig F64).validate n = [] ↔ 1 ≤ n ∧ n ≤ 1000000 := autoScale_valid_iff n

/-- Over the reals, the scaled configuration is in the documented ranges exactly for those sizes. -/
theorem C26_documented_ranges (n : ℤ) :
    SwarmValid (autoScaleConfig n : SwarmConfig ℝ) n ↔ 1 ≤ n ∧ n ≤ 1000000 := by
  rw [← C27_swarm_validate_real]; exact autoScale_valid_iff n

/-- The scaled configuration never needs repair: normalising it for its own size succeeds and changes nothing. -/
theorem C26_never_repaired [Rounding] [LibM] (n : ℤ) (h1 : 1 ≤ n) (h2 : n ≤ 1000000) :
    (autoScaleConfig n : SwarmConfig F64).normalizeAndValidate n = ([], autoScaleConfig n) := by
  unfold SwarmConfig.normalizeAndValidate
  rw [if_neg (by rw [not_not, C26_valid_iff]; exact ⟨h1, h2⟩), autoScale_normalize n h1 h2]

/-- Above a million agents it is rejected, and normalisation cannot help. -/
theorem C26_too_large [Rounding] [LibM] (n : ℤ) (h : 1000000 < n) :
    ((autoScaleConfig n : SwarmConfig F64).normalizeAndValidate n).1 ≠ [] := by
  rw [C25_fails_iff]
  have := (autoScale_ints (α := F64) n (by omega)).1
  rw [this]; right; split_ifs <;> omega

/-- How strongly agents are coupled in large swarms: inversely proportional to the size from 101 agents on. -/
theorem C26_coupling (n : ℤ) (h : 100 < n) :
    (autoScaleConfig n : SwarmConfig ℝ).couplingStrength * n = if n < 1000 then 70 else 50 := by
  have hn : (n : ℝ) ≠ 0 := by
    have : (100 : ℝ) < n := by exact_mod_cast h
    linarith
  unfold autoScaleConfig autoScaleBase
  simp only [if_pos h, if_neg (show ¬ n < 10 by omega), if_neg (show ¬ n < 20 by omega),
    if_neg (show ¬ n < 100 by omega)]
  split_ifs <;> simp only [defaultSwarmConfig, GoMath.ofInt_real] <;> field_simp <;> norm_num

example : (autoScaleConfig 50 : SwarmConfig ℝ).maxNeighbors = 10 := by decide +kernel

/-! ## C28 Batching configurations -/

/-- The batching configuration passes validation as it is exactly for 31 to 1,000,000 workloads. -/
theorem C28_valid_iff [Rounding] [LibM] (n w : ℤ) :
    (forBatching n w : SwarmConfig F64).validate n = [] ↔ 31 ≤ n ∧ n ≤ 1000000 := forBatching_valid_iff n w

/-- For up to 30 workloads it is rejected only because the two intervals are not set. -/
theorem C28_small_rejected [Rounding] [LibM] (n w : ℤ) (h1 : 1 ≤ n) (h2 : n ≤ 30) :
    (forBatching n w : SwarmConfig F64).validate n = ["AgentUpdateInterval", "MonitoringInterval"] := by
  obtain ⟨⟨p1, p2, p3, p4, p5, p6, p7, p8⟩, hi⟩ := forBatching_fields (α := F64) n w
  rw [if_pos h2] at hi
  obtain ⟨i1, i2, i3, i4, i5, i6, i7, i8, i9, -⟩ := hi
  have e : n.tdiv 2 = n / 2 := Int.tdiv_eq_ediv_of_nonneg (by omega)
  rw [e] at i3
  have np : ∀ x : F64, UnitFacts.in01 x → ¬ (x < 0 ∨ 1 < x) := fun x hx => not_or.2 (UnitFacts.ok x hx)
  unfold SwarmConfig.validate
  rw [i1, i2, i3, i4, i5, i6, i7, i8, i9]
  unfold reject
  rw [if_neg (np _ p1), if_neg (np _ p2), if_neg (np _ p3), if_neg (np _ p4), if_neg (np _ p5), if_neg (np _ p6),
    if_neg p7, if_neg p8, if_neg (show ¬ n ≤ 0 by omega), if_neg (by omega)]
  have e1 : (if n > 0 ∧ n - 1 ≤ 0 then (if min (n - 1) 15 ≠ 0 then ["MaxNeighbors"] else [])
      else (if min (n - 1) 15 < 1 then ["MaxNeighbors"] else [])) = ([] : List String) := by
    split_ifs <;> first | rfl | omega
  rw [e1, if_neg (by omega), if_neg (by omega), if_neg (by omega)]
  simp

/-- Normalisation makes it usable exactly for the sizes from 1 to 1,000,000. -/
theorem C28_normalizes [Rounding] [LibM] (n w : ℤ) :
    ((forBatching n w : SwarmConfig F64).normalizeAndValidate n).1 = [] ↔ 1 ≤ n ∧ n ≤ 1000000 := by
  have h := C25_fails_iff (forBatching n w : SwarmConfig F64) n
  obtain ⟨-, hi⟩ := forBatching_fields (α := F64) n w
  rw [← not_iff_not, ← ne_eq, h]
  by_cases hn : n ≤ 30
  · rw [if_pos hn] at hi
    rw [hi.1]; omega
  · rw [if_neg hn] at hi
    have := (autoScale_ints (α := F64) n (by omega)).1
    dsimp only at hi
    rw [hi.1, this]
    split_ifs <;> omega

/-- Coupling bounds: positive, at most 0.95, at most 0.85 unless the batch window is below 100 ms; a shorter batch
window never weakens the coupling and never makes agents more stubborn. -/
theorem C28_coupling (n w : ℤ) :
    0 < (forBatching n w : SwarmConfig ℝ).couplingStrength ∧ (forBatching n w : SwarmConfig ℝ).couplingStrength ≤ 0.95 ∧
    (100 * millisecond ≤ w → (forBatching n w : SwarmConfig ℝ).couplingStrength ≤ 0.85) ∧
    ∀ w' ≤ w, (forBatching n w : SwarmConfig ℝ).couplingStrength ≤ (forBatching n w' : SwarmConfig ℝ).couplingStrength ∧
      (forBatching n w' : SwarmConfig ℝ).stubbornness ≤ (forBatching n w : SwarmConfig ℝ).stubbornness := by
  have hpos : ∀ m : ℤ, 0 < (autoScaleConfig m : SwarmConfig ℝ).couplingStrength ∧
      0 ≤ (autoScaleConfig m : SwarmConfig ℝ).stubbornness := by
    intro m
    refine ⟨?_, (autoScale_in01 (α := ℝ) m).2.2.1.1⟩
    unfold autoScaleConfig
    dsimp only
    have hb : 0 < (autoScaleBase m : SwarmConfig ℝ).couplingStrength := by
      unfold autoScaleBase
      split_ifs <;> simp only [smallSwarmConfig, mediumSwarmConfig, defaultSwarmConfig] <;> norm_num
    split_ifs with h
    · simp only [GoMath.ofInt_real]
      have : (0 : ℝ) < m := by exact_mod_cast (by omega)
      positivity
    · exact hb
  -- the part before the window adjustment
  obtain ⟨c, s, hc0, hc1, hs, e⟩ : ∃ c s : ℝ, 0 < c ∧ c ≤ 0.85 ∧ 0 ≤ s ∧ ∀ v : ℤ,
      (forBatching n v : SwarmConfig ℝ).couplingStrength =
        (if v < 100 * millisecond then minFloat 0.95 (c * 1.2) else if v > 500 * millisecond then c * 0.95 else c) ∧
      (forBatching n v : SwarmConfig ℝ).stubbornness = (if v < 100 * millisecond then s * 0.5 else s) := by
    by_cases hn : n ≤ 30
    · refine ⟨0.85, 0.02, by norm_num, le_rfl, by norm_num, fun v => ?_⟩
      unfold forBatching
      simp only [if_pos hn]
      split_ifs <;> exact ⟨rfl, rfl⟩
    · obtain ⟨h1, h2⟩ := hpos n
      refine ⟨minFloat 0.8 ((autoScaleConfig n : SwarmConfig ℝ).couplingStrength * 1.3),
        (autoScaleConfig n : SwarmConfig ℝ).stubbornness * 0.2, ?_, ?_, by positivity, fun v => ?_⟩
      · unfold minFloat; split_ifs <;> [norm_num; positivity]
      · unfold minFloat; split_ifs with h <;> [norm_num; skip]
        push Not at h; linarith
      · unfold forBatching
        simp only [if_neg hn]
        split_ifs <;> exact ⟨rfl, rfl⟩
  have hm : c ≤ minFloat 0.95 (c * 1.2) ∧ minFloat 0.95 (c * 1.2) ≤ 0.95 := by
    unfold minFloat; split_ifs with h
    · exact ⟨by linarith, le_rfl⟩
    · push Not at h; exact ⟨by linarith, h⟩
  have e' := fun v => (e v).1
  have e'' := fun v => (e v).2
  refine ⟨?_, ?_, fun hw => ?_, fun w' hw => ⟨?_, ?_⟩⟩
  · rw [e']; split_ifs <;> [linarith; positivity; exact hc0]
  · rw [e']; split_ifs <;> linarith
  · rw [e', if_neg (by omega)]; split_ifs <;> linarith
  · rw [e', e']
    generalize minFloat (0.95 : ℝ) (c * 1.2) = q at hm
    split_ifs <;> first | (exfalso; omega) | linarith
  · rw [e'', e'']
    split_ifs <;> first | (exfalso; omega) | linarith

/-- For C26: at 250 agents nothing is repaired and the coupling strength is 0.28; a swarm of two million is rejected. -/
example [Rounding] [LibM] : (autoScaleConfig 250 : SwarmConfig F64).normalizeAndValidate 250 = ([], autoScaleConfig 250) ∧
    (autoScaleConfig 250 : SwarmConfig ℝ).couplingStrength = 0.28 ∧ ((autoScaleConfig 2000000 : SwarmConfig F64).normalizeAndValidate 2000000).1 ≠ [] := by
  refine ⟨C26_never_repaired 250 (by norm_num) (by norm_num), ?_, C26_too_large 2000000 (by norm_num)⟩
  have := C26_coupling 250 (by norm_num)
  norm_num at this ⊢
  linarith

/-- For C28: a batching configuration for twenty workloads is rejected as it is, and one with a shorter window couples at least as strongly. -/
example [Rounding] [LibM] : (forBatching 20 (50 * millisecond) : SwarmConfig F64).validate 20 = ["AgentUpdateInterval", "MonitoringInterval"] ∧
    (forBatching 20 (300 * millisecond) : SwarmConfig ℝ).couplingStrength ≤ (forBatching 20 (50 * millisecond) : SwarmConfig ℝ).couplingStrength :=
  ⟨C28_small_rejected 20 _ (by norm_num) (by norm_num), ((C28_coupling 20 (300 * millisecond)).2.2.2 (50 * millisecond) (by norm_num [millisecond])).1⟩

end Verif
