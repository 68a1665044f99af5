import Verif.Model.Demo
import Verif.Props.Phase
import Mathlib.Analysis.Real.Pi.Bounds
import Mathlib.Analysis.SpecialFunctions.Trigonometric.Bounds
import Mathlib.Algebra.Field.GeomSum

/-!
# C87, C88: the phases after a reset and after a disruption of the demo
-/

set_option autoImplicit false
set_option linter.unusedSectionVars false

namespace Verif
open Real Spec

/-! ## Sums of unit vectors -/

namespace Spec

/-- The unit vector of an angle. -/
noncomputable def unit (p : ℝ) : ℂ := Complex.exp (p * Complex.I)

/-- The unit vectors of a list, summed. -/
noncomputable def total (l : List ℝ) : ℂ := (l.map unit).sum

end Spec

theorem orderParameter_eq_total (l : List ℝ) : orderParameter l = ‖total l‖ / l.length := rfl

theorem total_append (l m : List ℝ) : total (l ++ m) = total l + total m := by simp [total]

theorem total_replicate (n : ℕ) (p : ℝ) : total (List.replicate n p) = n * Spec.unit p := by simp [total]

theorem unit_zero : Spec.unit 0 = 1 := by simp [Spec.unit]

theorem norm_unit (p : ℝ) : ‖Spec.unit p‖ = 1 := Complex.norm_exp_ofReal_mul_I p

theorem unit_add (p q : ℝ) : Spec.unit (p + q) = Spec.unit p * Spec.unit q := by
  simp [Spec.unit, add_mul, Complex.exp_add]

theorem unit_sub_one (x : ℝ) : ‖Spec.unit x - 1‖ = 2 * |sin (x / 2)| := by
  have := Complex.norm_exp_I_mul_ofReal_sub_one x
  rw [Spec.unit, mul_comm, this]
  simp

theorem unit_pi : Spec.unit π = -1 := by simp [Spec.unit, Complex.exp_pi_mul_I]

/-- 3.14159 is half a turn up to 3·10⁻⁶. -/
theorem unit_half : ‖Spec.unit 3.14159 + 1‖ ≤ 3e-6 := by
  have h : Spec.unit 3.14159 + 1 = -(Spec.unit (3.14159 - π) - 1) := by
    have : Spec.unit 3.14159 = Spec.unit (3.14159 - π) * Spec.unit π := by rw [← unit_add]; congr 1; ring
    rw [this, unit_pi]; ring
  rw [h, norm_neg, unit_sub_one]
  have h1 := Real.pi_gt_d6
  have h2 := Real.pi_lt_d6
  have h3 : |sin ((3.14159 - π) / 2)| ≤ |(3.14159 - π) / 2| := Real.abs_sin_le_abs
  have h4 : |(3.14159 - π) / 2| = (π - 3.14159) / 2 := by rw [abs_of_neg (by linarith)]; ring
  rw [h4] at h3
  norm_num at *; linarith

/-- A run of equally spaced phases. -/
theorem norm_run (θ : ℝ) (n : ℕ) (h : sin (θ / 2) ≠ 0) :
    ‖total ((List.range n).map fun i : ℕ => (i : ℝ) * θ)‖ = |sin (n * θ / 2)| / |sin (θ / 2)| := by
  have e1 : total ((List.range n).map fun i : ℕ => (i : ℝ) * θ) = ∑ i ∈ Finset.range n, Spec.unit θ ^ i := by
    clear h
    induction n with
    | zero => simp [total]
    | succ n ih =>
      rw [List.range_succ, List.map_append, total_append, ih, Finset.sum_range_succ]
      simp only [total, List.map_cons, List.map_nil, List.sum_cons, List.sum_nil, add_zero, Spec.unit]
      rw [← Complex.exp_nat_mul]; push_cast; ring_nf
  have hne : Spec.unit θ ≠ 1 := by
    intro e
    have := unit_sub_one θ
    rw [e] at this
    simp at this
    exact h this
  rw [e1, geom_sum_eq hne, norm_div]
  have : Spec.unit θ ^ n = Spec.unit (n * θ) := by
    simp only [Spec.unit]; rw [← Complex.exp_nat_mul]; push_cast; ring_nf
  rw [this, unit_sub_one, unit_sub_one]
  rw [mul_div_mul_left _ _ (by norm_num)]

/-! ## C87 Reset puts the swarm into the worst state for its goal -/

theorem reset_phases (g : GoalType) (agents : List (Agent ℝ)) :
    agentsCoherence (simReset g agents) = orderParameter ((List.range agents.length).map fun i => resetPhase g agents.length i) := by
  rw [agentsCoherence, ← C03_coherence_eq_orderParameter]
  apply C04_coherence_turns
  rw [List.forall₂_iff_get]
  refine ⟨by simp [simReset], ?_⟩
  intro i h1 h2
  simp only [simReset, List.get_eq_getElem, List.getElem_map, List.getElem_mapIdx, List.getElem_range]
  exact wrapPhase_sameAngle _

theorem total_const (n : ℕ) (p : ℝ) (f : ℕ → ℝ) (h : ∀ i < n, f i = p) : total ((List.range n).map f) = n * Spec.unit p := by
  rw [← total_replicate]
  congr 1
  apply List.ext_getElem (by simp)
  intro i h1 h2
  simp at h1 ⊢
  exact h i h1

/-- Everything at phase 0. -/
theorem reset_together (g : GoalType) (hg : g = 1 ∨ g = 4 ∨ g = 7) (n : ℕ) (hn : n ≠ 0) :
    orderParameter ((List.range n).map fun i => resetPhase g n i) = 1 := by
  rw [orderParameter_eq_total, total_const n 0 _ (fun i _ => by simp [resetPhase, hg]), unit_zero]
  simp [hn]

theorem near_of_total (l : List ℝ) (m : ℕ) (c : ℕ) (h : ‖total l - c * (-1) ^ m‖ ≤ 3e-6 * l.length) (hl : l ≠ []) :
    |orderParameter l - c / l.length| ≤ 3e-6 := by
  have hl' : (0 : ℝ) < l.length := by exact_mod_cast List.length_pos_iff.mpr hl
  rw [orderParameter_eq_total, ← sub_div, abs_div, abs_of_pos hl', div_le_iff₀ hl']
  refine le_trans ?_ h
  have := abs_norm_sub_norm_le (total l) (c * (-1) ^ m)
  simpa using this

theorem two_groups (l : List ℝ) (a b : ℕ) (hab : a + b = l.length) (h : total l = a + b * Spec.unit 3.14159) :
    ‖total l - ((a : ℂ) - b)‖ ≤ 3e-6 * l.length := by
  have : total l - ((a : ℂ) - b) = b * (Spec.unit 3.14159 + 1) := by rw [h]; ring
  rw [this, norm_mul, Complex.norm_natCast, mul_comm]
  have hb : (b : ℝ) ≤ l.length := by rw [← hab]; push_cast; linarith [Nat.cast_nonneg (α := ℝ) a]
  exact mul_le_mul unit_half hb (by positivity) (by norm_num)

/-- Alternating between 0 and about half a turn. -/
theorem reset_alternating (n : ℕ) :
    total ((List.range n).map fun i => (resetPhase 3 n i : ℝ)) = ((n + 1) / 2 : ℕ) + (n / 2 : ℕ) * Spec.unit 3.14159 := by
  have key : ∀ N k : ℕ, total ((List.range k).map fun i => (resetPhase 3 N i : ℝ)) = ((k + 1) / 2 : ℕ) + (k / 2 : ℕ) * Spec.unit 3.14159 := by
    intro N k
    induction k with
    | zero => simp [total]
    | succ k ih =>
      rw [List.range_succ, List.map_append, total_append, ih]
      have e : (resetPhase 3 N k : ℝ) = if k % 2 = 0 then 0 else 3.14159 := by simp [resetPhase]
      simp only [total, List.map_cons, List.map_nil, List.sum_cons, List.sum_nil, add_zero, e]
      rcases Nat.mod_two_eq_zero_or_one k with hk | hk
      · rw [if_pos hk, unit_zero]
        have h1 : (k + 1) / 2 = k / 2 := by omega
        have h2 : (k + 1 + 1) / 2 = k / 2 + 1 := by omega
        rw [h1, h2]; push_cast; ring
      · rw [if_neg (by omega)]
        have h1 : (k + 1) / 2 = k / 2 + 1 := by omega
        have h2 : (k + 1 + 1) / 2 = k / 2 + 1 := by omega
        rw [h1, h2]; push_cast; ring
  exact key n n

/-- One half at 0, the other at about half a turn. -/
theorem reset_halves (n : ℕ) :
    total ((List.range n).map fun i => (resetPhase 6 n i : ℝ)) = (n / 2 : ℕ) + (n - n / 2 : ℕ) * Spec.unit 3.14159 := by
  have key : ∀ k ≤ n, total ((List.range k).map fun i => (resetPhase 6 n i : ℝ)) =
      (min k (n / 2) : ℕ) + (k - n / 2 : ℕ) * Spec.unit 3.14159 := by
    intro k hk
    induction k with
    | zero => simp [total]
    | succ k ih =>
      rw [List.range_succ, List.map_append, total_append, ih (by omega)]
      have e : (resetPhase 6 n k : ℝ) = if k < n / 2 then 0 else 3.14159 := by simp [resetPhase]
      simp only [total, List.map_cons, List.map_nil, List.sum_cons, List.sum_nil, add_zero, e]
      by_cases h : k < n / 2
      · rw [if_pos h, unit_zero]
        have h1 : min k (n / 2) = k := by omega
        have h2 : min (k + 1) (n / 2) = k + 1 := by omega
        have h3 : k - n / 2 = 0 := by omega
        have h4 : k + 1 - n / 2 = 0 := by omega
        rw [h1, h2, h3, h4]; push_cast; ring
      · rw [if_neg h]
        have h1 : min k (n / 2) = n / 2 := by omega
        have h2 : min (k + 1) (n / 2) = n / 2 := by omega
        have h4 : k + 1 - n / 2 = k - n / 2 + 1 := by omega
        rw [h1, h2, h4]; push_cast; ring
  rw [key n le_rfl]
  have : min n (n / 2) = n / 2 := by omega
  rw [this]

/-- The two oppositions leave at most one agent unbalanced. -/
theorem reset_opposed (g : GoalType) (hg : g = 3 ∨ g = 6) (n : ℕ) (hn : n ≠ 0) :
    |orderParameter ((List.range n).map fun i => resetPhase g n i) - (n % 2 : ℕ) / n| ≤ 3e-6 := by
  have hlen : ((List.range n).map fun i => (resetPhase g n i : ℝ)).length = n := by simp
  have hne : ((List.range n).map fun i => (resetPhase g n i : ℝ)) ≠ [] := by
    intro e; rw [e] at hlen; exact hn hlen.symm
  have key : ∃ m : ℕ, ‖total ((List.range n).map fun i => (resetPhase g n i : ℝ)) - (n % 2 : ℕ) * (-1) ^ m‖ ≤ 3e-6 * n := by
    rcases hg with rfl | rfl
    · refine ⟨0, ?_⟩
      have := two_groups _ ((n + 1) / 2) (n / 2) (by rw [hlen]; omega) (reset_alternating n)
      rw [hlen] at this
      have e : (((n + 1) / 2 : ℕ) : ℂ) - (n / 2 : ℕ) = (n % 2 : ℕ) * (-1) ^ 0 := by
        have : (n + 1) / 2 = n / 2 + n % 2 := by omega
        rw [this]; push_cast; ring
      rwa [e] at this
    · refine ⟨1, ?_⟩
      have := two_groups _ (n / 2) (n - n / 2) (by rw [hlen]; omega) (reset_halves n)
      rw [hlen] at this
      have e : ((n / 2 : ℕ) : ℂ) - (n - n / 2 : ℕ) = (n % 2 : ℕ) * (-1) ^ 1 := by
        have : n - n / 2 = n / 2 + n % 2 := by omega
        rw [this]; push_cast; ring
      rwa [e] at this
  obtain ⟨m, hm⟩ := key
  have := near_of_total _ m (n % 2) (by rw [hlen]; exact hm) hne
  rwa [hlen] at this

/-- Spread over the circle. -/
theorem reset_spread (g : GoalType) (hg : g ≠ 1 ∧ g ≠ 3 ∧ g ≠ 4 ∧ g ≠ 5 ∧ g ≠ 6 ∧ g ≠ 7) (n : ℕ) (hn : 2 ≤ n) :
    orderParameter ((List.range n).map fun i => resetPhase g n i) ≤ 2e-6 := by
  have e : (fun i : ℕ => (resetPhase g n i : ℝ)) = fun i : ℕ => (i : ℝ) * (6.28318 / n) := by
    funext i; simp [resetPhase, hg]
  have h1 := Real.pi_gt_d6
  have h2 := Real.pi_lt_d6
  have hn2 : (2 : ℝ) ≤ n := by exact_mod_cast hn
  have hn0 : (0 : ℝ) < n := by linarith
  have hx : (6.28318 / n / 2 : ℝ) = 3.14159 / n := by ring
  have hle : (3.14159 / n : ℝ) ≤ π / 2 := by rw [div_le_div_iff₀ hn0 (by norm_num)]; nlinarith
  have hs := Real.mul_le_sin (show (0 : ℝ) ≤ 3.14159 / n by positivity) hle
  have hpos : (0 : ℝ) < 2 / π * (3.14159 / n) := by positivity
  rw [orderParameter_eq_total, e, norm_run _ _ (by rw [hx]; exact (hpos.trans_le hs).ne'), hx]
  simp only [List.length_map, List.length_range]
  have hy : (n * (6.28318 / n) / 2 : ℝ) = 3.14159 := by field_simp; norm_num
  rw [hy, abs_of_pos (hpos.trans_le hs)]
  have hsin : |sin 3.14159| ≤ 3e-6 := by
    rw [← Real.sin_pi_sub, ]
    refine Real.abs_sin_le_abs.trans ?_
    rw [abs_of_pos (by linarith)]; norm_num; linarith
  rw [div_div, div_le_iff₀ (mul_pos (hpos.trans_le hs) hn0)]
  have h3 : 1.99 ≤ sin (3.14159 / n) * n := by
    have h4 : (2 / π * (3.14159 / n)) * n ≤ sin (3.14159 / n) * n := mul_le_mul_of_nonneg_right hs hn0.le
    have h5 : (2 / π * (3.14159 / n)) * n = 6.28318 / π := by field_simp; norm_num
    have h6 : (1.99 : ℝ) ≤ 6.28318 / π := by rw [le_div_iff₀ (by positivity)]; linarith
    linarith
  linarith

/-- Steps of 1.7. -/
theorem reset_rhythm (n : ℕ) (hn : n ≠ 0) :
    orderParameter ((List.range n).map fun i => resetPhase 5 n i) ≤ 1.4 / n := by
  have e : (fun i : ℕ => (resetPhase 5 n i : ℝ)) = fun i : ℕ => (i : ℝ) * 1.7 := by
    funext i; simp [resetPhase]
  have hs := Real.sin_gt_sub_cube (show (0 : ℝ) < 1.7 / 2 by norm_num)
  have hs' : (1 / 1.4 : ℝ) ≤ sin (1.7 / 2) := by refine le_trans ?_ hs.le; norm_num
  have hn0 : (0 : ℝ) < n := by exact_mod_cast Nat.pos_of_ne_zero hn
  rw [orderParameter_eq_total, e, norm_run _ _ (by linarith)]
  simp only [List.length_map, List.length_range]
  apply div_le_div_of_nonneg_right _ hn0.le
  rw [abs_of_pos (show (0 : ℝ) < sin (1.7 / 2) by linarith), div_le_iff₀ (by linarith)]
  have := Real.abs_sin_le_one (n * 1.7 / 2)
  have h2 : (1 : ℝ) ≤ 1.4 * sin (1.7 / 2) := by
    have := mul_le_mul_of_nonneg_left hs' (show (0 : ℝ) ≤ 1.4 by norm_num)
    norm_num at this ⊢; linarith
  linarith

/-- Resetting moves the agents, whatever phases they had, to phases whose coherence is known for every number of agents: 1 for the
goals that start together, 0 up to rounding of π for those that are spread or opposed (but for one odd agent), and at most 1.4 / n for the
drifting ones. -/
theorem C87_coherence (g : GoalType) (agents : List (Agent ℝ)) (h2 : 2 ≤ agents.length) :
    ((g = 1 ∨ g = 4 ∨ g = 7) → agentsCoherence (simReset g agents) = 1) ∧
    ((g = 3 ∨ g = 6) → |agentsCoherence (simReset g agents) - (agents.length % 2 : ℕ) / agents.length| ≤ 3e-6) ∧
    (g = 5 → agentsCoherence (simReset g agents) ≤ 1.4 / agents.length) ∧
    ((g = 0 ∨ g = 2) → agentsCoherence (simReset g agents) ≤ 2e-6) := by
  simp only [reset_phases]
  refine ⟨fun h => reset_together g h _ (by omega), fun h => reset_opposed g h _ (by omega), ?_, ?_⟩
  · rintro rfl; exact reset_rhythm _ (by omega)
  · intro h; refine reset_spread g ?_ _ h2; rcases h with rfl | rfl <;> decide

example : ∃ agents : List (Agent ℝ), 2 ≤ agents.length := ⟨[Agent.zero, Agent.zero], by simp⟩

/-- Resetting changes nothing but the phases, and the new phases do not depend on the old ones. -/
theorem C87_frame (g : GoalType) (agents agents' : List (Agent ℝ)) (h : agents.length = agents'.length) :
    (simReset g agents).map (fun a => a.setPhase 0) = agents.map (fun a => a.setPhase 0) ∧
    (simReset g agents).map (fun a => a.state.phase) = (simReset g agents').map (fun a => a.state.phase) ∧
    ∀ a ∈ simReset g agents, 0 ≤ a.state.phase ∧ a.state.phase < 2 * π := by
  refine ⟨?_, ?_, ?_⟩
  · apply List.ext_getElem (by simp [simReset])
    intro i h1 h2
    simp [simReset, Agent.setPhase]
  · apply List.ext_getElem (by simp [simReset, h])
    intro i h1 h2
    simp [simReset, Agent.setPhase, h]
  · intro a ha
    obtain ⟨i, hi, rfl⟩ := List.mem_iff_getElem.mp ha
    simp only [simReset, List.getElem_mapIdx, Agent.setPhase]
    exact ⟨wrapPhase_nonneg _, wrapPhase_lt _⟩

namespace Spec

/-- A coherence on the wrong side of the target: above it for the goals that want little coherence (`DistributeLoad`, `SaveEnergy`,
`RecoverFromFailure`), below it for the others. -/
def Missed (g : Int) (target c : ℝ) : Prop :=
  ((g = 1 ∨ g = 4 ∨ g = 6) → target < c) ∧ (¬ (g = 1 ∨ g = 4 ∨ g = 6) → c < target)

end Spec

/-- What the comments of `Reset` say: the worst state for each goal. At the very least the target must be missed. -/
def C87_claim : Prop := ∀ (g : GoalType) (s : Size) (agents : List (Agent ℝ)), (agents.length : ℤ) = s.defaultAgentCount →
  Spec.Missed g (demoTarget g s) (agentsCoherence (simReset g agents))

theorem agentCount_cases (s : Size) (n : ℕ) (h : (n : ℤ) = s.defaultAgentCount) : 20 ≤ n ∧ n % 2 = 0 := by
  unfold Size.defaultAgentCount at h
  split at h <;> omega

theorem target_bounds (s : Size) : (0.55 : ℝ) ≤ s.defaultTargetCoherence ∧ (s.defaultTargetCoherence : ℝ) ≤ 0.9 := by
  unfold Size.defaultTargetCoherence
  split <;> norm_num

/-- For every goal but two the target is missed after a reset, at every scale. -/
theorem C87_reset_partial (g : GoalType) (s : Size) (agents : List (Agent ℝ)) (h : (agents.length : ℤ) = s.defaultAgentCount)
    (h6 : g ≠ 6) (h7 : g ≠ 7) : Spec.Missed g (demoTarget g s) (agentsCoherence (simReset g agents)) := by
  obtain ⟨hn, hev⟩ := agentCount_cases s _ h
  obtain ⟨t1, t2⟩ := target_bounds s
  have hn' : (20 : ℝ) ≤ agents.length := by exact_mod_cast hn
  constructor
  · rintro (rfl | rfl | rfl)
    · rw [reset_phases, reset_together 1 (by simp) _ (by omega)]; simp only [demoTarget]; norm_num
    · rw [reset_phases, reset_together 4 (by simp) _ (by omega)]; simp only [demoTarget]; norm_num
    · exact absurd rfl h6
  · intro hg
    push Not at hg
    have hd : (0.55 : ℝ) ≤ demoTarget g s := by
      unfold demoTarget
      split_ifs with c1 c2 c3
      · rcases c1 with c1 | c1
        · exact absurd c1 hg.1
        · exact absurd c1 h6
      · norm_num
      · exact absurd c3 hg.2.1
      · exact t1
    refine lt_of_lt_of_le ?_ hd
    rw [reset_phases]
    by_cases h3 : g = 3
    · have := reset_opposed g (Or.inl h3) agents.length (by omega)
      rw [hev] at this
      have := (abs_le.mp this).2
      norm_num at this ⊢; linarith
    · by_cases h5 : g = 5
      · subst h5
        have := reset_rhythm agents.length (by omega)
        have h8 : (1.4 : ℝ) / agents.length ≤ 1.4 / 20 := by
          apply div_le_div_of_nonneg_left <;> linarith
        norm_num at this h8 ⊢; linarith
      · have := reset_spread g ⟨hg.1, h3, hg.2.1, h5, h6, h7⟩ agents.length (by omega)
        norm_num at this ⊢; linarith

/-- For `RecoverFromFailure` and `AdaptToTraffic` the target is met right after a reset, at every scale. -/
theorem C87_reset_met (g : GoalType) (s : Size) (agents : List (Agent ℝ)) (h : (agents.length : ℤ) = s.defaultAgentCount) :
    (g = 6 → agentsCoherence (simReset g agents) < demoTarget g s) ∧ (g = 7 → demoTarget g s < agentsCoherence (simReset g agents)) := by
  obtain ⟨hn, hev⟩ := agentCount_cases s _ h
  obtain ⟨t1, t2⟩ := target_bounds s
  constructor
  · rintro rfl
    rw [reset_phases]
    have := reset_opposed 6 (Or.inr rfl) agents.length (by omega)
    rw [hev] at this
    have := (abs_le.mp this).2
    simp only [demoTarget]; norm_num at this ⊢; linarith
  · rintro rfl
    rw [reset_phases, reset_together 7 (by simp) _ (by omega)]
    simp only [demoTarget]; norm_num; norm_num at t2; linarith

example : ∃ agents : List (Agent ℝ), (agents.length : ℤ) = Size.defaultAgentCount 3 :=
  ⟨List.replicate 1000 Agent.zero, by rw [List.length_replicate]; rfl⟩

/-- For goal 7 (`AdaptToTraffic`) the target is met after a reset. -/
theorem C87_refuted : ¬ C87_claim := by
  intro h
  have hl : ((List.replicate 20 (Agent.zero : Agent ℝ)).length : ℤ) = Size.defaultAgentCount 0 := by simp [Size.defaultAgentCount]
  have h1 := (h 7 0 _ hl).2 (by decide)
  have h2 := (C87_reset_met 7 0 _ hl).2 rfl
  linarith

/-! ## C88 Disruption -/

theorem disrupt_eq (k : ℕ) (l : List (Agent ℝ)) :
    demoDisruptLoop k l = (l.take k).map (fun a => a.setPhase (a.state.phase + 3.14159)) ++ l.drop k := by
  induction l generalizing k with
  | nil => cases k <;> simp [demoDisruptLoop]
  | cons a l ih =>
    cases k with
    | zero => simp [demoDisruptLoop]
    | succ k => simp [demoDisruptLoop, ih]

/-- A disruption moves exactly the first fifth (rounded down) of the agents, by 3.14159 round the circle, and touches nothing else. With
fewer than five agents it does nothing. -/
theorem C88_disrupt (l : List (Agent ℝ)) :
    (simDisrupt l).length = l.length ∧
    (∀ i (h : i < l.length) (h' : i < (simDisrupt l).length), 5 * (i + 1) ≤ l.length →
      SameAngle (simDisrupt l)[i].state.phase (l[i].state.phase + 3.14159) ∧ (simDisrupt l)[i].setPhase 0 = l[i].setPhase 0) ∧
    (∀ i (h : i < l.length) (h' : i < (simDisrupt l).length), ¬ 5 * (i + 1) ≤ l.length → (simDisrupt l)[i] = l[i]) ∧
    (l.length < 5 → simDisrupt l = l) := by
  unfold simDisrupt
  rw [disrupt_eq]
  have hk : l.length / 5 ≤ l.length := Nat.div_le_self _ _
  refine ⟨by simp; omega, ?_, ?_, ?_⟩
  · intro i h h' hi
    have hlt : i < ((l.take (l.length / 5)).map (fun a => a.setPhase (a.state.phase + 3.14159))).length := by simp; omega
    rw [List.getElem_append_left hlt]
    simp only [List.getElem_map, List.getElem_take, Agent.setPhase]
    exact ⟨wrapPhase_sameAngle _, trivial⟩
  · intro i h h' hi
    rw [List.getElem_append_right (by simp; omega)]
    simp only [List.getElem_drop, List.length_map, List.length_take]
    congr 1
    omega
  · intro h
    have : l.length / 5 = 0 := by omega
    rw [this]; simp

/-- The phases. -/
abbrev phasesOf (l : List (Agent ℝ)) : List ℝ := l.map fun a => a.state.phase

theorem total_turns {l l' : List ℝ} (h : List.Forall₂ SameAngle l l') : total l = total l' := by
  unfold total
  induction h with
  | nil => rfl
  | cons h _ ih =>
    obtain ⟨k, rfl⟩ := h
    simp only [List.map_cons, List.sum_cons, ih]
    congr 1
    rw [unit_add]
    have : Spec.unit (k * (2 * π)) = 1 := by
      unfold Spec.unit
      rw [Complex.exp_eq_one_iff]
      exact ⟨k, by push_cast; ring⟩
    rw [this, mul_one]

theorem total_shift (l : List ℝ) (d : ℝ) : total (l.map (· + d)) = Spec.unit d * total l := by
  unfold total
  induction l with
  | nil => simp
  | cons a l ih =>
    simp only [List.map_cons, List.sum_cons, unit_add]
    rw [ih]; ring

theorem norm_total_le (l : List ℝ) : ‖total l‖ ≤ l.length := norm_sum_exp_le l

theorem disrupt_total (l : List (Agent ℝ)) :
    total (phasesOf (simDisrupt l)) =
      total (phasesOf l) + (Spec.unit 3.14159 - 1) * total (phasesOf (l.take (l.length / 5))) := by
  have e : phasesOf l = phasesOf (l.take (l.length / 5)) ++ phasesOf (l.drop (l.length / 5)) := by
    simp only [phasesOf, ← List.map_append, List.take_append_drop]
  rw [e, total_append]
  unfold simDisrupt
  rw [disrupt_eq, phasesOf, List.map_append, total_append, List.map_map]
  have : total ((l.take (l.length / 5)).map ((fun a : Agent ℝ => a.state.phase) ∘ fun a => a.setPhase (a.state.phase + 3.14159))) =
      Spec.unit 3.14159 * total (phasesOf (l.take (l.length / 5))) := by
    rw [← total_shift]
    apply total_turns
    rw [List.map_map, List.forall₂_map_left_iff, List.forall₂_map_right_iff, List.forall₂_same]
    intro a _
    exact wrapPhase_sameAngle _
  rw [this]; ring

theorem coherence_total (l : List (Agent ℝ)) : agentsCoherence l = ‖total (phasesOf l)‖ / l.length := by
  rw [agentsCoherence, C03_coherence_eq_orderParameter, orderParameter_eq_total, List.length_map]

/-- Whatever the agents are doing, a disruption changes the coherence by at most two fifths. -/
theorem C88_effect (l : List (Agent ℝ)) : |agentsCoherence (simDisrupt l) - agentsCoherence l| ≤ 0.4 := by
  have hlen := (C88_disrupt l).1
  rcases Nat.eq_zero_or_pos l.length with h0 | h0
  · have : l = [] := List.length_eq_zero_iff.mp h0
    subst this
    simp [simDisrupt, demoDisruptLoop]; norm_num
  have h0' : (0 : ℝ) < l.length := by exact_mod_cast h0
  rw [coherence_total, coherence_total, hlen, ← sub_div, abs_div, abs_of_pos h0', div_le_iff₀ h0']
  refine (abs_norm_sub_norm_le _ _).trans ?_
  rw [disrupt_total, add_sub_cancel_left, norm_mul]
  have h1 : ‖Spec.unit 3.14159 - 1‖ ≤ 2 := by
    refine (norm_sub_le _ _).trans ?_
    rw [norm_unit]; norm_num
  have h2 := norm_total_le (phasesOf (l.take (l.length / 5)))
  have h3 : ((phasesOf (l.take (l.length / 5))).length : ℝ) ≤ l.length / 5 := by
    have : (phasesOf (l.take (l.length / 5))).length = l.length / 5 := by simp; omega
    rw [this]
    exact Nat.cast_div_le
  have h4 := mul_le_mul h1 (h2.trans h3) (norm_nonneg _) (by norm_num)
  refine h4.trans (le_of_eq ?_)
  ring

/-- A synchronised swarm of n agents is left with a coherence of 1 − 2⌊n/5⌋/n, up to the rounding of π; that is never below 0.6. -/
theorem C88_synchronised (l : List (Agent ℝ)) (hne : l ≠ []) (h : ∀ a ∈ l, ∀ b ∈ l, SameAngle a.state.phase b.state.phase) :
    1 - 2 * (l.length / 5 : ℕ) / l.length ≤ agentsCoherence (simDisrupt l) ∧
    agentsCoherence (simDisrupt l) ≤ 1 - 2 * (l.length / 5 : ℕ) / l.length + 1e-6 ∧
    0.6 ≤ agentsCoherence (simDisrupt l) := by
  have hlen := (C88_disrupt l).1
  have h0' : (0 : ℝ) < l.length := by exact_mod_cast List.length_pos_iff.mpr hne
  obtain ⟨a, ha⟩ := List.exists_mem_of_ne_nil l hne
  have same : ∀ m : List (Agent ℝ), (∀ b ∈ m, b ∈ l) → total (phasesOf m) = m.length * Spec.unit a.state.phase := by
    intro m hm
    rw [← total_replicate]
    apply total_turns
    rw [List.forall₂_iff_get]
    refine ⟨by simp, ?_⟩
    intro i h1 h2
    simp only [phasesOf, List.get_eq_getElem, List.getElem_map, List.getElem_replicate]
    exact h _ (hm _ (List.getElem_mem _)) a ha
  have e := disrupt_total l
  have ek : (l.take (l.length / 5)).length = l.length / 5 := by simp; omega
  rw [same l (fun _ hb => hb), same _ (fun b hb => List.mem_of_mem_take hb), ek] at e
  have e2 : total (phasesOf (simDisrupt l)) =
      (((l.length : ℝ) - 2 * (l.length / 5 : ℕ) : ℝ) + (l.length / 5 : ℕ) * (Spec.unit 3.14159 + 1)) * Spec.unit a.state.phase := by
    rw [e]; push_cast; ring
  have hk : (((l.length / 5 : ℕ) : ℝ)) ≤ l.length / 5 := Nat.cast_div_le
  have hnn : (0 : ℝ) ≤ (l.length : ℝ) - 2 * (l.length / 5 : ℕ) := by linarith
  have hsmall : ‖((l.length / 5 : ℕ) : ℂ) * (Spec.unit 3.14159 + 1)‖ ≤ 1e-6 * l.length := by
    rw [norm_mul, Complex.norm_natCast]
    have := mul_le_mul hk unit_half (norm_nonneg _) (by positivity)
    refine this.trans ?_
    norm_num; linarith
  have hup : ‖total (phasesOf (simDisrupt l))‖ ≤ (l.length : ℝ) - 2 * (l.length / 5 : ℕ) + 1e-6 * l.length := by
    rw [e2, norm_mul, norm_unit, mul_one]
    refine (norm_add_le _ _).trans ?_
    rw [Complex.norm_real, Real.norm_of_nonneg hnn]
    linarith
  have hlo : (l.length : ℝ) - 2 * (l.length / 5 : ℕ) ≤ ‖total (phasesOf (simDisrupt l))‖ := by
    have e3 : total (phasesOf (simDisrupt l)) =
      (((l.length : ℝ) - (l.length / 5 : ℕ) : ℝ) + (l.length / 5 : ℕ) * Spec.unit 3.14159) * Spec.unit a.state.phase := by
      rw [e]; push_cast; ring
    rw [e3, norm_mul, norm_unit, mul_one]
    have h1 := norm_sub_norm_le ((((l.length : ℝ) - (l.length / 5 : ℕ) : ℝ)) : ℂ) (-((l.length / 5 : ℕ) * Spec.unit 3.14159))
    rw [sub_neg_eq_add, norm_neg, norm_mul, norm_unit, mul_one, Complex.norm_natCast, Complex.norm_real, Real.norm_of_nonneg (by linarith)] at h1
    linarith
  rw [coherence_total, hlen]
  have eq1 : (1 : ℝ) - 2 * (l.length / 5 : ℕ) / l.length = ((l.length : ℝ) - 2 * (l.length / 5 : ℕ)) / l.length := by
    field_simp
  refine ⟨?_, ?_, ?_⟩
  · rw [eq1]; exact div_le_div_of_nonneg_right hlo h0'.le
  · rw [eq1, div_le_iff₀ h0', add_mul, div_mul_cancel₀ _ h0'.ne']; exact hup
  · rw [le_div_iff₀ h0']; refine le_trans ?_ hlo; linarith

example : ∃ l : List (Agent ℝ), l ≠ [] ∧ 5 ≤ l.length ∧ ∀ a ∈ l, ∀ b ∈ l, SameAngle a.state.phase b.state.phase := by
  refine ⟨List.replicate 20 Agent.zero, by simp, by simp, ?_⟩
  intro a ha b hb
  rw [List.eq_of_mem_replicate ha, List.eq_of_mem_replicate hb]
  exact SameAngle.refl _

/-- A synchronised swarm of the demo counts as recovered at the first look if its goal is to spread, to reach consensus, to save energy or
to recover from failure, and at the largest scale for every goal; otherwise it does not. -/
theorem C88_first_look (g : GoalType) (s : Size) (l : List (Agent ℝ)) (hl : (l.length : ℤ) = s.defaultAgentCount)
    (h : ∀ a ∈ l, ∀ b ∈ l, SameAngle a.state.phase b.state.phase) :
    recoveryTick true (agentsCoherence (simDisrupt l)) (demoTarget g s) = false ↔ (g = 1 ∨ g = 2 ∨ g = 4 ∨ g = 6 ∨ s = 4) := by
  have hne : l ≠ [] := by
    rintro rfl
    have := (agentCount_cases s 0 (by simpa using hl)).1
    omega
  obtain ⟨h1, h2, h3⟩ := C88_synchronised l hne h
  have h0' : (0 : ℝ) < l.length := by exact_mod_cast List.length_pos_iff.mpr hne
  have h5 : 5 * (l.length / 5) = l.length := by
    have : l.length % 5 = 0 := by
      unfold Size.defaultAgentCount at hl
      split at hl <;> omega
    omega
  have h5' : ((l.length / 5 : ℕ) : ℝ) = l.length / 5 := by
    have : (5 : ℝ) * (l.length / 5 : ℕ) = l.length := by exact_mod_cast h5
    linarith
  have h6 : 2 * ((l.length / 5 : ℕ) : ℝ) / l.length = 0.4 := by
    rw [h5']; field_simp; norm_num
  rw [h6] at h2
  have tick : ∀ c t : ℝ, recoveryTick true c t = false ↔ t ≤ c := by
    intro c t
    unfold recoveryTick
    by_cases hc : t ≤ c
    · simp [hc]
    · simp [hc]
  rw [tick]
  constructor
  · intro hle
    by_contra hc
    push Not at hc
    obtain ⟨g1, g2, g4, g6, s4⟩ := hc
    have : (0.65 : ℝ) ≤ demoTarget g s := by
      simp only [demoTarget, g1, g2, g4, g6, or_self, if_false]
      unfold Size.defaultTargetCoherence
      split <;> first | exact absurd rfl s4 | norm_num
    norm_num at h2 this; linarith
  · intro hg
    refine le_trans ?_ h3
    unfold demoTarget
    split_ifs with c1 c2 c3
    · norm_num
    · norm_num
    · norm_num
    · have : s = 4 := by
        push Not at c1
        rcases hg with hg | hg | hg | hg | hg
        · exact absurd hg c1.1
        · exact absurd hg c2
        · exact absurd hg c3
        · exact absurd hg c1.2
        · exact hg
      subst this
      norm_num [Size.defaultTargetCoherence]

/-- What the flag should mean: as long as it is up, the swarm misses its target. -/
def C88_claim : Prop := ∀ (g : GoalType) (s : Size) (c : ℝ),
  recoveryTick true c (demoTarget g s) = true → Spec.Missed g (demoTarget g s) c

/-- It does for the goals that want coherence, and it is lowered as soon as they reach it; for the goals that want little coherence the
flag is the wrong way round: it is lowered only once the target is missed or just met. -/
theorem C88_flag_partial (g : GoalType) (t c : ℝ) :
    (¬ (g = 1 ∨ g = 4 ∨ g = 6) → (recoveryTick true c t = true ↔ Spec.Missed g t c)) ∧
    ((g = 1 ∨ g = 4 ∨ g = 6) → recoveryTick true c t = true → ¬ Spec.Missed g t c) ∧
    ((g = 1 ∨ g = 4 ∨ g = 6) → Spec.Missed g t c → recoveryTick true c t = false) ∧
    recoveryTick false c t = false := by
  unfold recoveryTick Spec.Missed
  by_cases hc : t ≤ c
  · simp only [ge_iff_le, hc, Bool.not_true, Bool.false_eq_true, if_true, if_false]
    refine ⟨fun hg => ?_, fun _ h => by simp at h, by simp, by simp⟩
    simp [hg, hc]
  · simp only [ge_iff_le, hc, Bool.not_true, Bool.false_eq_true, if_false]
    push Not at hc
    refine ⟨fun hg => ?_, fun hg _ hm => ?_, fun hg hm => ?_, by simp⟩
    · simp [hg, hc]
    · exact absurd (hm.1 hg) (by linarith)
    · exact absurd (hm.1 hg) (by linarith)

/-- For goal 1 (`DistributeLoad`) the flag is up although the target is met. -/
theorem C88_refuted : ¬ C88_claim := by
  intro h
  have := (h 1 0 0 (by simp [recoveryTick, demoTarget]; norm_num)).1 (by simp)
  norm_num [demoTarget] at this

end Verif
