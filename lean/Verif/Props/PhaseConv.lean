import Verif.Model.GoalDirected
import Verif.Props.Completion

/-!
# C57: phase convergence and phase variance
-/

set_option autoImplicit false
set_option linter.unusedSectionVars false

namespace Verif
open GoMath Spec

/-! ## Phase convergence over the reals -/

theorem foldl_targetDistance (t : ℝ) (l : List ℝ) (s : ℝ) :
    l.foldl (fun s p => s + targetDistance t p) s = s + (l.map (targetDistance t)).sum := by
  induction l generalizing s with
  | nil => simp
  | cons x xs ih => rw [List.foldl_cons, ih, List.map_cons, List.sum_cons]; ring

theorem phaseConvergence_eq (l : List ℝ) (t : ℝ) (h : l ≠ []) :
    phaseConvergence l t = max 0 (1 - (l.map (targetDistance t)).sum / l.length / Real.pi) := by
  unfold phaseConvergence
  rw [if_neg (by simpa using h), foldl_targetDistance]
  simp only [GoMath.ofInt_real, GoMath.piMul_real, Int.cast_natCast, zero_add, Rat.cast_one, one_mul]
  split_ifs with h1
  · rw [max_eq_left h1.le]
  · rw [max_eq_right (not_lt.1 h1)]

/-- Within one turn the code's distance is the length of the shorter arc. -/
theorem targetDistance_circ (t p : ℝ) (ht : 0 ≤ t ∧ t < 2 * Real.pi) (hp : 0 ≤ p ∧ p < 2 * Real.pi) :
    IsCircDist t p (targetDistance t p) ∧ 0 ≤ targetDistance t p ∧ targetDistance t p ≤ Real.pi ∧
      (targetDistance t p = 0 ↔ p = t) := by
  have hpi := Real.pi_pos
  unfold targetDistance
  simp only [GoMath.abs_real, GoMath.piMul_real]
  push_cast
  rw [one_mul]
  have hlt : |p - t| < 2 * Real.pi := by rw [abs_lt]; constructor <;> linarith
  split_ifs with h
  · refine ⟨?_, by linarith, by linarith, fun h0 => by linarith, fun h0 => ?_⟩
    · rcases abs_cases (p - t) with ⟨e, h0⟩ | ⟨e, h0⟩
      · have h1 : |t - p + 2 * Real.pi| = 2 * Real.pi - |p - t| := by rw [e, abs_of_nonneg (by linarith)]; ring
        rw [← h1]
        exact isCircDist_of_le ⟨-1, by push_cast; ring⟩ (by rw [h1]; linarith)
      · have h1 : |t - p - 2 * Real.pi| = 2 * Real.pi - |p - t| := by rw [e, abs_of_nonpos (by linarith)]; ring
        rw [← h1]
        exact isCircDist_of_le ⟨1, by push_cast; ring⟩ (by rw [h1]; linarith)
    · rw [h0] at h; simp at h; linarith
  · rw [not_lt] at h
    refine ⟨?_, abs_nonneg _, h, ?_⟩
    · rw [abs_sub_comm]
      exact isCircDist_of_le ⟨0, by push_cast; ring⟩ (by rw [abs_sub_comm]; exact h)
    · rw [abs_eq_zero, sub_eq_zero]

theorem sum_bounds (l : List ℝ) (m : ℝ) (h : ∀ x ∈ l, 0 ≤ x ∧ x ≤ m) : 0 ≤ l.sum ∧ l.sum ≤ l.length * m ∧
    (l.sum = 0 ↔ ∀ x ∈ l, x = 0) := by
  induction l with
  | nil => simp
  | cons x xs ih =>
    obtain ⟨h1, h2⟩ := h x List.mem_cons_self
    obtain ⟨i1, i2, i3⟩ := ih fun y hy => h y (List.mem_cons_of_mem _ hy)
    rw [List.sum_cons, List.length_cons]
    push_cast
    refine ⟨by linarith, by linarith, fun h0 => ?_, fun h0 => ?_⟩
    · intro y hy
      rcases List.mem_cons.1 hy with rfl | hy
      · linarith
      · exact i3.1 (by linarith) y hy
    · rw [h0 x List.mem_cons_self, i3.2 fun y hy => h0 y (List.mem_cons_of_mem _ hy)]; simp

/-- **C57, phase convergence** (exact arithmetic): for phases and target in `[0, 2π)` it is one minus the mean length of the
shorter arc to the target in units of half a turn, lies in `[0, 1]`, and is 1 exactly when every agent is at the target. -/
theorem C57_convergence (l : List ℝ) (t : ℝ) (hl : l ≠ []) (ht : 0 ≤ t ∧ t < 2 * Real.pi)
    (h : ∀ p ∈ l, 0 ≤ p ∧ p < 2 * Real.pi) :
    (∃ ds : List ℝ, List.Forall₂ (fun p d => IsCircDist t p d) l ds ∧
      phaseConvergence l t = 1 - ds.sum / l.length / Real.pi) ∧
    0 ≤ phaseConvergence l t ∧ phaseConvergence l t ≤ 1 ∧ (phaseConvergence l t = 1 ↔ ∀ p ∈ l, p = t) := by
  have hpi := Real.pi_pos
  have hn : (0 : ℝ) < l.length := by exact_mod_cast List.length_pos_iff.2 hl
  obtain ⟨h1, h2, h3⟩ := sum_bounds (l.map (targetDistance t)) Real.pi (by
    intro x hx
    obtain ⟨p, hp, rfl⟩ := List.mem_map.1 hx
    exact ⟨(targetDistance_circ t p ht (h p hp)).2.1, (targetDistance_circ t p ht (h p hp)).2.2.1⟩)
  rw [List.length_map] at h2
  have hq0 : 0 ≤ (l.map (targetDistance t)).sum / l.length / Real.pi := by positivity
  have hq1 : (l.map (targetDistance t)).sum / l.length / Real.pi ≤ 1 := by
    rw [div_div, div_le_one (by positivity)]; exact h2
  have e : phaseConvergence l t = 1 - (l.map (targetDistance t)).sum / l.length / Real.pi := by
    rw [phaseConvergence_eq l t hl, max_eq_right (by linarith)]
  refine ⟨⟨l.map (targetDistance t), ?_, e⟩, by rw [e]; linarith, by rw [e]; linarith, ?_⟩
  · rw [List.forall₂_map_right_iff, List.forall₂_same]
    exact fun p hp => (targetDistance_circ t p ht (h p hp)).1
  · rw [e, sub_eq_self, div_div, div_eq_zero_iff, or_iff_left (by positivity : (l.length * Real.pi : ℝ) ≠ 0), h3]
    constructor
    · intro h0 p hp
      exact (targetDistance_circ t p ht (h p hp)).2.2.2.1 (h0 _ (List.mem_map_of_mem hp))
    · intro h0 x hx
      obtain ⟨p, hp, rfl⟩ := List.mem_map.1 hx
      exact (targetDistance_circ t p ht (h p hp)).2.2.2.2 (h0 p hp)

example : ∃ (l : List ℝ) (t : ℝ), l.length = 2 ∧ l ≠ [] ∧ (0 ≤ t ∧ t < 2 * Real.pi) ∧ (∀ p ∈ l, 0 ≤ p ∧ p < 2 * Real.pi) ∧
    phaseConvergence l t ≠ 1 := by
  have hpi := Real.pi_gt_three
  have ht : (0 : ℝ) ≤ 0 ∧ (0 : ℝ) < 2 * Real.pi := ⟨le_rfl, by linarith⟩
  have hl : ∀ p ∈ [(0 : ℝ), 1], 0 ≤ p ∧ p < 2 * Real.pi := by
    intro p hp
    simp only [List.mem_cons, List.not_mem_nil, or_false] at hp
    rcases hp with rfl | rfl <;> constructor <;> linarith
  refine ⟨[0, 1], 0, rfl, by simp, ht, hl, fun h => ?_⟩
  have := (C57_convergence [0, 1] 0 (by simp) ht hl).2.2.2.1 h 1 (by simp)
  norm_num at this

/-- Without agents the convergence is 0. -/
theorem C57_no_agents (t : ℝ) : phaseConvergence [] t = 0 := rfl

/-- **C57** for every goal phase that `State.Validate` accepts. -/
def C57_claim : Prop :=
  ∀ (l : List ℝ) (goal : State ℝ), goal.validate = [] → (∀ p ∈ l, 0 ≤ p ∧ p < 2 * Real.pi) →
    phaseConvergence l goal.phase ≤ 1

/-- **C57 is false outside one turn.** The goal phase 4π is accepted, and a single agent at phase 0, which is at the goal,
has the "convergence" 3. -/
theorem C57_refuted : ¬ C57_claim := by
  intro h
  have hpi := Real.pi_pos
  have h1 := h [0] ⟨4 * Real.pi, 1, 0.5⟩ ?_ ?_
  · rw [phaseConvergence_eq _ _ (by simp)] at h1
    have e : targetDistance (4 * Real.pi) 0 = -(2 * Real.pi) := by
      unfold targetDistance
      simp only [GoMath.abs_real, GoMath.piMul_real]
      push_cast
      rw [zero_sub, abs_neg, abs_of_pos (by linarith), if_pos (by linarith)]
      ring
    simp only [List.map_cons, List.map_nil, List.sum_cons, List.sum_nil, e, List.length_cons, List.length_nil] at h1
    have : -(2 * Real.pi) / Real.pi = -2 := by field_simp
    norm_num [this] at h1
  · simp [State.validate]
    norm_num
  · intro p hp
    rw [List.mem_singleton.1 hp]
    constructor <;> linarith

/-! ## Phase variance over the reals -/

theorem halfTurnDown_spec (fuel : ℕ) (x y : ℝ) (h : halfTurnDown fuel x = some y) :
    SameAngle y x ∧ y ≤ Real.pi ∧ (y = x ∨ -Real.pi < y) := by
  have hpi := Real.pi_pos
  induction fuel generalizing x with
  | zero =>
    unfold halfTurnDown at h
    simp only [GoMath.piMul_real] at h
    push_cast at h
    rw [one_mul] at h
    split_ifs at h with hx
    cases h
    exact ⟨.refl _, not_lt.1 hx, Or.inl rfl⟩
  | succ n ih =>
    unfold halfTurnDown at h
    simp only [GoMath.piMul_real] at h
    push_cast at h
    rw [one_mul] at h
    split_ifs at h with hx
    · obtain ⟨h1, h2, h3⟩ := ih _ h
      refine ⟨h1.trans ⟨-1, by push_cast; ring⟩, h2, Or.inr ?_⟩
      rcases h3 with rfl | h3
      · linarith
      · exact h3
    · cases h
      exact ⟨.refl _, not_lt.1 hx, Or.inl rfl⟩

theorem halfTurnUp_spec (fuel : ℕ) (x y : ℝ) (hx : x ≤ Real.pi) (h : halfTurnUp fuel x = some y) :
    SameAngle y x ∧ |y| ≤ Real.pi := by
  have hpi := Real.pi_pos
  induction fuel generalizing x with
  | zero =>
    unfold halfTurnUp at h
    simp only [GoMath.piMul_real] at h
    push_cast at h
    rw [one_mul] at h
    split_ifs at h with hx'
    cases h
    exact ⟨.refl _, abs_le.2 ⟨not_lt.1 hx', hx⟩⟩
  | succ n ih =>
    unfold halfTurnUp at h
    simp only [GoMath.piMul_real] at h
    push_cast at h
    rw [one_mul] at h
    split_ifs at h with hx'
    · obtain ⟨h1, h2⟩ := ih _ (by linarith) h
      exact ⟨h1.trans ⟨1, by push_cast; ring⟩, h2⟩
    · cases h
      exact ⟨.refl _, abs_le.2 ⟨not_lt.1 hx', hx⟩⟩

theorem deviation_spec (fuel : ℕ) (m p d : ℝ) (h : deviation fuel m p = some d) :
    IsCircDist p m |d| ∧ |d| ≤ Real.pi := by
  unfold deviation at h
  obtain ⟨y, h1, h2⟩ := Option.bind_eq_some_iff.1 h
  obtain ⟨a1, a2, -⟩ := halfTurnDown_spec _ _ _ h1
  obtain ⟨b1, b2⟩ := halfTurnUp_spec _ _ _ a2 h2
  refine ⟨isCircDist_of_le ?_ b2, b2⟩
  have := ((b1.trans a1).add_right m).symm
  rw [sub_add_cancel, add_comm d m] at this
  exact this

theorem varianceLoop_spec (fuel : ℕ) (m : ℝ) (l : List ℝ) (v w : ℝ) (h : varianceLoop fuel m l v = some w) :
    ∃ ds : List ℝ, List.Forall₂ (fun p d => IsCircDist p m d ∧ 0 ≤ d ∧ d ≤ Real.pi) l ds ∧
      w = v + (ds.map fun d => d ^ 2).sum := by
  induction l generalizing v with
  | nil => unfold varianceLoop at h; cases h; exact ⟨[], .nil, by simp⟩
  | cons p ps ih =>
    unfold varianceLoop at h
    obtain ⟨d, h1, h2⟩ := Option.bind_eq_some_iff.1 h
    obtain ⟨ds, e1, e2⟩ := ih _ h2
    obtain ⟨d1, d2⟩ := deviation_spec _ _ _ _ h1
    refine ⟨|d| :: ds, .cons ⟨d1, abs_nonneg _, d2⟩ e1, ?_⟩
    rw [e2, List.map_cons, List.sum_cons, sq_abs]; ring

/-- The circular mean is the direction of the resultant of the unit vectors. -/
theorem meanPhase_eq (l : List ℝ) (hl : l ≠ []) :
    meanPhase l = Complex.arg (l.map fun p : ℝ => Complex.exp (p * Complex.I)).sum := by
  have hn : (0 : ℝ) < l.length := by exact_mod_cast List.length_pos_iff.2 hl
  have key : ∀ (l : List ℝ) (a b : ℝ), l.foldl (fun (s : ℝ × ℝ) p => (s.1 + sin p, s.2 + cos p)) (a, b) =
      (a + (l.map Real.sin).sum, b + (l.map Real.cos).sum) := by
    intro l
    induction l with
    | nil => simp
    | cons x xs ih =>
      intro a b
      rw [List.foldl_cons, ih]
      simp only [GoMath.sin_real, GoMath.cos_real, List.map_cons, List.sum_cons]
      refine Prod.ext ?_ ?_ <;> simp only <;> ring
  have hs : ∀ l : List ℝ, (l.map fun p : ℝ => Complex.exp (p * Complex.I)).sum =
      ⟨(l.map Real.cos).sum, (l.map Real.sin).sum⟩ := by
    intro l
    induction l with
    | nil => apply Complex.ext <;> simp
    | cons x xs ih =>
      rw [List.map_cons, List.sum_cons, ih, Complex.exp_mul_I]
      apply Complex.ext
      · simp [Complex.cos_ofReal_re]
      · simp [Complex.sin_ofReal_re]
  unfold meanPhase
  rw [key, hs]
  simp only [zero_add, GoMath.atan2_real, GoMath.ofInt_real, Int.cast_natCast]
  have : (⟨(l.map Real.cos).sum / l.length, (l.map Real.sin).sum / l.length⟩ : ℂ) =
      ((l.length : ℝ)⁻¹ : ℝ) * ⟨(l.map Real.cos).sum, (l.map Real.sin).sum⟩ := by
    apply Complex.ext <;> simp <;> ring
  rw [this, Complex.arg_real_mul _ (by positivity)]

theorem halfTurnDown_total (n : ℕ) (x : ℝ) (h : x ≤ Real.pi + n * (2 * Real.pi)) (fuel : ℕ) (hf : n ≤ fuel) :
    ∃ y, halfTurnDown fuel x = some y := by
  induction fuel generalizing n x with
  | zero =>
    obtain rfl : n = 0 := by omega
    unfold halfTurnDown
    simp only [GoMath.piMul_real]
    push_cast at h ⊢
    rw [if_neg (by linarith)]
    exact ⟨_, rfl⟩
  | succ f ih =>
    unfold halfTurnDown
    simp only [GoMath.piMul_real]
    push_cast
    split_ifs with hx
    · cases n with
      | zero => push_cast at h; exact absurd hx (by linarith)
      | succ n => exact ih n _ (by push_cast at h ⊢; linarith) (by omega)
    · exact ⟨_, rfl⟩

theorem halfTurnUp_total (n : ℕ) (x : ℝ) (h : -Real.pi - n * (2 * Real.pi) ≤ x) (fuel : ℕ) (hf : n ≤ fuel) :
    ∃ y, halfTurnUp fuel x = some y := by
  induction fuel generalizing n x with
  | zero =>
    obtain rfl : n = 0 := by omega
    unfold halfTurnUp
    simp only [GoMath.piMul_real]
    push_cast at h ⊢
    rw [if_neg (by linarith)]
    exact ⟨_, rfl⟩
  | succ f ih =>
    unfold halfTurnUp
    simp only [GoMath.piMul_real]
    push_cast
    split_ifs with hx
    · cases n with
      | zero => push_cast at h; exact absurd hx (by linarith)
      | succ n => exact ih n _ (by push_cast at h ⊢; linarith) (by omega)
    · exact ⟨_, rfl⟩

/-- The two loops end within `n` iterations each for a difference of at most `n` turns beyond half a turn. -/
theorem deviation_total (n : ℕ) (m p : ℝ) (h : |p - m| ≤ Real.pi + n * (2 * Real.pi)) (fuel : ℕ) (hf : n ≤ fuel) :
    ∃ d, deviation fuel m p = some d := by
  have hpi := Real.pi_pos
  rw [abs_le] at h
  obtain ⟨y, hy⟩ := halfTurnDown_total n _ h.2 fuel hf
  obtain ⟨-, -, h3⟩ := halfTurnDown_spec _ _ _ hy
  have hy' : -Real.pi - n * (2 * Real.pi) ≤ y := by
    rcases h3 with rfl | h3
    · linarith [h.1]
    · have : 0 ≤ (n : ℝ) * (2 * Real.pi) := by positivity
      linarith
  obtain ⟨d, hd⟩ := halfTurnUp_total n y hy' fuel hf
  exact ⟨d, by unfold deviation; rw [hy]; exact hd⟩

theorem varianceLoop_total (fuel : ℕ) (m : ℝ) (l : List ℝ) (h : ∀ p ∈ l, ∃ d, deviation fuel m p = some d) (v : ℝ) :
    ∃ w, varianceLoop fuel m l v = some w := by
  induction l generalizing v with
  | nil => exact ⟨v, rfl⟩
  | cons p ps ih =>
    obtain ⟨d, hd⟩ := h p List.mem_cons_self
    obtain ⟨w, hw⟩ := ih (fun q hq => h q (List.mem_cons_of_mem _ hq)) (v + d * d)
    exact ⟨w, by unfold varianceLoop; rw [hd]; exact hw⟩

theorem phaseVariance_total (n : ℕ) (l : List ℝ) (h : ∀ p ∈ l, |p| ≤ n * (2 * Real.pi)) (fuel : ℕ) (hf : n ≤ fuel) :
    ∃ v, phaseVariance fuel l = some v := by
  unfold phaseVariance
  split_ifs with h0
  · exact ⟨0, rfl⟩
  · have hl : l ≠ [] := by simpa using h0
    obtain ⟨w, hw⟩ := varianceLoop_total fuel (meanPhase l) l (fun p hp => by
      refine deviation_total n _ _ ?_ fuel hf
      refine (abs_sub _ _).trans ?_
      rw [meanPhase_eq l hl]
      have := Complex.abs_arg_le_pi (l.map fun p : ℝ => Complex.exp (p * Complex.I)).sum
      linarith [h p hp]) 0
    exact ⟨_, by rw [hw]; rfl⟩

/-- **C57, phase variance** (exact arithmetic), for all phases whatsoever: the computation terminates; its result is the
mean square of the shorter arcs from the circular mean, lies in `[0, π²]`, and is 0 exactly when all agents are at the same
angle. -/
theorem C57_variance (l : List ℝ) (hl : l ≠ []) :
    (∃ N, ∀ fuel ≥ N, ∃ v, phaseVariance fuel l = some v) ∧
    ∀ fuel v, phaseVariance fuel l = some v →
      (∃ ds : List ℝ, List.Forall₂ (fun p d => IsCircDist p (Complex.arg (l.map fun p : ℝ => Complex.exp (p * Complex.I)).sum) d)
        l ds ∧ v = (ds.map fun d => d ^ 2).sum / l.length) ∧
      0 ≤ v ∧ v ≤ Real.pi ^ 2 ∧ (v = 0 ↔ ∀ p ∈ l, ∀ q ∈ l, SameAngle p q) := by
  have hpi := Real.pi_pos
  have hn : (0 : ℝ) < l.length := by exact_mod_cast List.length_pos_iff.2 hl
  constructor
  · obtain ⟨M, hM⟩ : ∃ M : ℝ, ∀ p ∈ l, |p| ≤ M := by
      clear hl hn
      induction l with
      | nil => exact ⟨0, by simp⟩
      | cons x xs ih =>
        obtain ⟨M, hM⟩ := ih
        refine ⟨max |x| M, fun p hp => ?_⟩
        rcases List.mem_cons.1 hp with rfl | hp
        · exact le_max_left _ _
        · exact (hM p hp).trans (le_max_right _ _)
    obtain ⟨N, hN⟩ := exists_nat_ge (M / (2 * Real.pi))
    refine ⟨N, fun fuel hf => phaseVariance_total N l (fun p hp => (hM p hp).trans ?_) fuel hf⟩
    rwa [div_le_iff₀ (by positivity)] at hN
  · intro fuel v hv
    unfold phaseVariance at hv
    rw [if_neg (by simpa using hl), meanPhase_eq l hl] at hv
    obtain ⟨w, hw, rfl⟩ := Option.map_eq_some_iff.1 hv
    obtain ⟨ds, h1, h2⟩ := varianceLoop_spec _ _ _ _ _ hw
    rw [zero_add] at h2
    simp only [GoMath.ofInt_real, Int.cast_natCast]
    set m := Complex.arg (l.map fun p : ℝ => Complex.exp (p * Complex.I)).sum with hm
    obtain ⟨b1, b2, b3⟩ := sum_bounds (ds.map fun d => d ^ 2) (Real.pi ^ 2) (by
      intro x hx
      obtain ⟨d, hd, rfl⟩ := List.mem_map.1 hx
      obtain ⟨i, hi, rfl⟩ := List.mem_iff_getElem.1 hd
      obtain ⟨-, h3, h4⟩ := (List.forall₂_iff_get.1 h1).2 i (by rw [h1.length_eq]; exact hi) hi
      exact ⟨by positivity, pow_le_pow_left₀ h3 h4 2⟩)
    rw [List.length_map, ← h1.length_eq] at b2
    refine ⟨⟨ds, h1.imp fun p d h => h.1, by rw [h2]⟩, by rw [h2]; positivity, ?_, ?_⟩
    · rw [h2, div_le_iff₀ hn]; linarith
    · rw [h2, div_eq_zero_iff, or_iff_left hn.ne', b3]
      constructor
      · intro h0
        have hz : ∀ p ∈ l, SameAngle p m := by
          intro p hp
          obtain ⟨i, hi, rfl⟩ := List.mem_iff_getElem.1 hp
          have hi' : i < ds.length := by rw [← h1.length_eq]; exact hi
          have h3 := (List.forall₂_iff_get.1 h1).2 i hi hi'
          have h4 := h0 _ (List.mem_map_of_mem (List.getElem_mem hi'))
          obtain ⟨⟨k, hk⟩, -⟩ := h3.1
          simp only [List.get_eq_getElem] at hk
          rw [pow_eq_zero_iff (by norm_num)] at h4
          rw [h4] at hk
          have := abs_eq_zero.1 hk.symm
          exact ⟨-k, by push_cast; linarith⟩
        exact fun p hp q hq => (hz p hp).trans (hz q hq).symm
      · intro hs x hx
        obtain ⟨d, hd, rfl⟩ := List.mem_map.1 hx
        obtain ⟨i, hi, rfl⟩ := List.mem_iff_getElem.1 hd
        have hi' : i < l.length := by rw [h1.length_eq]; exact hi
        have h3 := ((List.forall₂_iff_get.1 h1).2 i hi' hi).1
        simp only [List.get_eq_getElem] at h3
        have hsa : SameAngle l[i] m := by
          have e : (l.map fun p : ℝ => Complex.exp (p * Complex.I)).sum = (l.length : ℝ) * Complex.exp ((l[i] : ℝ) * Complex.I) := by
            have : l.map (fun p : ℝ => Complex.exp (p * Complex.I)) =
                List.replicate l.length (Complex.exp ((l[i] : ℝ) * Complex.I)) := by
              rw [List.eq_replicate_iff]
              refine ⟨by simp, fun z hz => ?_⟩
              obtain ⟨q, hq, rfl⟩ := List.mem_map.1 hz
              obtain ⟨k, hk⟩ := hs q hq l[i] (List.getElem_mem hi')
              rw [hk, Complex.exp_eq_exp_iff_exists_int]
              exact ⟨k, by push_cast; ring⟩
            rw [this, List.sum_replicate]
            simp
          have e2 : m = principal l[i] := by
            rw [hm, e, Complex.arg_real_mul _ hn]
            unfold principal
            congr 1
            rw [Complex.exp_mul_I]
            apply Complex.ext
            · simp [Complex.cos_ofReal_re]
            · simp [Complex.sin_ofReal_re]
          rw [e2]
          exact (principal_sameAngle _).symm
        obtain ⟨k, hk⟩ := hsa
        have h4 := h3.2 (-k)
        rw [hk] at h4
        push_cast at h4
        rw [show m + k * (2 * Real.pi) - m + -(k : ℝ) * (2 * Real.pi) = 0 by ring, abs_zero] at h4
        obtain ⟨⟨j, hj⟩, -⟩ := h3
        have h5 : 0 ≤ ds[i] := by rw [hj]; exact abs_nonneg _
        rw [pow_eq_zero_iff (by norm_num)]
        linarith

/-- Agents' phases need at most one turn of correction. -/
theorem C57_variance_in_range (l : List ℝ) (h : ∀ p ∈ l, 0 ≤ p ∧ p < 2 * Real.pi) (fuel : ℕ) (hf : 1 ≤ fuel) :
    ∃ v, phaseVariance fuel l = some v :=
  phaseVariance_total 1 l (fun p hp => by rw [abs_of_nonneg (h p hp).1, Nat.cast_one, one_mul]; exact (h p hp).2.le) fuel hf

example : ∃ l : List ℝ, l ≠ [] ∧ (∃ p ∈ l, ∃ q ∈ l, ¬ SameAngle p q) ∧ ∃ p ∈ l, ∃ q ∈ l, p ≠ q ∧ SameAngle p q := by
  have hpi := Real.pi_gt_three
  refine ⟨[0, 1, 2 * Real.pi], by simp, ⟨0, by simp, 1, by simp, fun h => ?_⟩, 0, by simp, 2 * Real.pi, by simp, by positivity,
    -1, by push_cast; ring⟩
  have := h.eq_of_Ico le_rfl (by linarith) (by norm_num) (by linarith)
  norm_num at this

/-! ## In doubles -/

section doubles
variable [Rounding] [LibM]

theorem F64.ofReal_int_between {x : ℝ} (l u : ℤ) (hl : |l| < 2 ^ 53) (hu : |u| < 2 ^ 53) (h1 : (l : ℝ) ≤ x) (h2 : x ≤ u) :
    ∃ d : Dbl, F64.ofReal x = .fin d ∧ (l : ℝ) ≤ d.1 ∧ d.1 ≤ u := by
  obtain ⟨y, hy, e, a, b⟩ := F64.ofReal_between (isDouble_int hl) (isDouble_int hu) h1 h2
  exact ⟨⟨y, hy⟩, e, a, b⟩

theorem piDouble_bounds : (3 : ℝ) ≤ piDouble ∧ piDouble ≤ 3.2 := by unfold piDouble; norm_num

theorem targetDistance_f64 {t p : F64} (ht : InTurn t) (hp : InTurn p) :
    ∃ d : Dbl, targetDistance t p = .fin d ∧ 0 ≤ d.1 ∧ d.1 ≤ 7 := by
  obtain ⟨t, rfl, t0, t1⟩ := ht
  obtain ⟨p, rfl, p0, p1⟩ := hp
  have hb := F64.tau_bounds
  unfold targetDistance
  rw [F64.sub_fin]
  obtain ⟨d, hd, e, h1, h2⟩ := F64.ofReal_between (x := p.1 - t.1) F64.tau.2.neg F64.tau.2 (by linarith) (by linarith)
  rw [e]
  obtain ⟨v, ev, hv⟩ := F64.abs_fin ⟨d, hd⟩
  have hle : v.1 ≤ F64.tau.1 := by rw [hv]; exact abs_le.2 ⟨h1, h2⟩
  have h0 : 0 ≤ v.1 := by rw [hv]; exact abs_nonneg _
  simp only [ev]
  split_ifs
  · rw [F64.piMul_two, F64.sub_fin]
    obtain ⟨d, e, h1, h2⟩ := F64.ofReal_int_between (x := F64.tau.1 - v.1) 0 7 (by norm_num) (by norm_num)
      (by push_cast; linarith) (by push_cast; linarith)
    exact ⟨d, e, by exact_mod_cast h1, by exact_mod_cast h2⟩
  · exact ⟨v, rfl, h0, by linarith⟩

theorem sumDistance_f64 {t : F64} (ht : InTurn t) (l : List F64) (hl : ∀ p ∈ l, InTurn p) (k : ℕ) (s : Dbl) (h0 : 0 ≤ s.1)
    (h1 : s.1 ≤ (7 * k : ℕ)) (hk : 7 * (k + l.length) < 2 ^ 53) :
    ∃ d : Dbl, l.foldl (fun s p => s + targetDistance t p) (F64.fin s) = .fin d ∧ 0 ≤ d.1 ∧ d.1 ≤ (7 * (k + l.length) : ℕ) := by
  induction l generalizing k s with
  | nil => exact ⟨s, rfl, h0, h1⟩
  | cons p ps ih =>
    rw [List.length_cons] at hk
    obtain ⟨d, e, d0, d1⟩ := targetDistance_f64 ht (hl p List.mem_cons_self)
    rw [List.foldl_cons, e, F64.add_fin]
    obtain ⟨r, e, r0, r1⟩ := F64.ofReal_int_between (x := s.1 + d.1) 0 ((7 * (k + 1) : ℕ) : ℤ) (by norm_num)
      (by rw [abs_of_nonneg (by positivity)]; omega) (by push_cast; linarith) (by push_cast at h1 ⊢; linarith)
    rw [e, List.length_cons, show k + (ps.length + 1) = k + 1 + ps.length by omega]
    exact ih (fun q hq => hl q (List.mem_cons_of_mem _ hq)) (k + 1) r (by exact_mod_cast r0) (by exact_mod_cast r1) (by omega)

/-- **C57, phase convergence in doubles**, for up to 10^15 agents: it is a number in `[0, 1]`. -/
theorem C57_convergence_double (l : List F64) (t : F64) (hn : l.length ≤ 10 ^ 15) (ht : InTurn t) (h : ∀ p ∈ l, InTurn p) :
    F64.In01 (phaseConvergence l t) := by
  unfold phaseConvergence
  split_ifs with h0
  · exact ⟨_, _, rfl, le_rfl, zero_le_one⟩
  have hn1 : 1 ≤ l.length := Nat.one_le_iff_ne_zero.2 h0
  have hn1' : (1 : ℝ) ≤ l.length := by exact_mod_cast hn1
  obtain ⟨d, e, d0, d1⟩ := sumDistance_f64 ht l h 0 ⟨0, isDouble_zero⟩ le_rfl (by simp) (by omega)
  rw [F64.zero_def, e]
  dsimp only
  have dn : IsDouble ((l.length : ℤ) : ℝ) := isDouble_int (by rw [abs_of_nonneg (by positivity)]; omega)
  have en : (ofInt (l.length : ℤ) : F64) = .fin ⟨_, dn⟩ := F64.ofReal_of_isDouble dn
  rw [en, F64.div_fin (show ((l.length : ℤ) : ℝ) ≠ 0 by push_cast; linarith)]
  rw [zero_add] at d1
  obtain ⟨q, e, q0, q1⟩ := F64.ofReal_int_between (x := d.1 / ((l.length : ℤ) : ℝ)) 0 7 (by norm_num) (by norm_num)
    (by push_cast; positivity) (by push_cast at d1 ⊢; rw [div_le_iff₀ (by linarith)]; exact d1)
  have hpi := piDouble_bounds
  rw [e, F64.piMul_one, F64.div_fin (by dsimp only; linarith)]
  obtain ⟨r, e, r0, r1⟩ := F64.ofReal_int_between (x := q.1 / piDouble) 0 7 (by norm_num) (by norm_num)
    (by push_cast at q0 ⊢; exact div_nonneg q0 (by linarith))
    (by push_cast at q0 q1 ⊢; rw [div_le_iff₀ (by linarith)]; linarith)
  rw [e, F64.one_def, F64.sub_fin]
  obtain ⟨c, e, c0, c1⟩ := F64.ofReal_int_between (x := 1 - r.1) (-6) 1 (by norm_num) (by norm_num)
    (by push_cast at r1 ⊢; linarith) (by push_cast at r0 ⊢; linarith)
  rw [e]
  split_ifs with hc
  · exact ⟨_, _, rfl, le_rfl, zero_le_one⟩
  · exact ⟨c.1, c.2, rfl, not_lt.1 hc, by exact_mod_cast c1⟩

theorem meanSums_f64 (l : List F64) (hl : ∀ x ∈ l, F64.IsFinite x) (k : ℕ) (a b : Dbl)
    (ha : |a.1| ≤ k) (hb : |b.1| ≤ k) (hk : k + l.length < 2 ^ 53) :
    ∃ c d : Dbl, l.foldl (fun (s : F64 × F64) p => (s.1 + sin p, s.2 + cos p)) (.fin a, .fin b) = (.fin c, .fin d) ∧
      |c.1| ≤ (k + l.length : ℕ) ∧ |d.1| ≤ (k + l.length : ℕ) := by
  induction l generalizing k a b with
  | nil => exact ⟨a, b, rfl, by simpa using ha, by simpa using hb⟩
  | cons x xs ih =>
    cases x with
    | fin p =>
      simp only [List.length_cons] at hk
      have step : ∀ (u v : Dbl), |u.1| ≤ k → |v.1| ≤ 1 → ∃ d : Dbl, (F64.fin u + F64.fin v : F64) = .fin d ∧
          |d.1| ≤ (k + 1 : ℕ) := by
        intro u v hu hv
        rw [F64.add_fin]
        refine F64.ofReal_abs_le (k + 1) (by omega) ((abs_add_le _ _).trans ?_)
        push_cast; linarith
      obtain ⟨a', ea, ha'⟩ := step a (LibM.sin p) ha (LibM.sin_le p)
      obtain ⟨b', eb, hb'⟩ := step b (LibM.cos p) hb (LibM.cos_le p)
      obtain ⟨c, d, e, hc, hd⟩ := ih (fun x hx => hl x (List.mem_cons_of_mem _ hx)) (k + 1) a' b' ha' hb' (by omega)
      refine ⟨c, d, ?_, ?_, ?_⟩
      · rw [List.foldl_cons, ← e, ← ea, ← eb]; rfl
      · rw [List.length_cons, show k + (xs.length + 1) = k + 1 + xs.length by omega]; exact hc
      · rw [List.length_cons, show k + (xs.length + 1) = k + 1 + xs.length by omega]; exact hd
    | _ => exact absurd (hl _ List.mem_cons_self) (by simp [F64.IsFinite])

/-- In doubles the circular mean of finitely many proper phases is a number between −π and π. -/
theorem meanPhase_f64 (l : List F64) (h0 : l ≠ []) (hn : l.length ≤ 10 ^ 15) (hl : ∀ x ∈ l, F64.IsFinite x) :
    ∃ m : Dbl, meanPhase l = .fin m ∧ |m.1| ≤ Real.pi := by
  unfold meanPhase
  obtain ⟨c, d, e, hc, hd⟩ := meanSums_f64 l hl 0 ⟨0, isDouble_zero⟩ ⟨0, isDouble_zero⟩ (by simp) (by simp) (by omega)
  have hn1 : (1 : ℝ) ≤ l.length := by exact_mod_cast List.length_pos_iff.2 h0
  simp only [F64.zero_def, e]
  have dn : IsDouble ((l.length : ℤ) : ℝ) := isDouble_int (by rw [abs_of_nonneg (by positivity)]; omega)
  have en : (ofInt (l.length : ℤ) : F64) = .fin ⟨_, dn⟩ := F64.ofReal_of_isDouble dn
  have n0 : ((l.length : ℤ) : ℝ) ≠ 0 := by push_cast; linarith
  rw [zero_add] at hc hd
  have q : ∀ x : Dbl, |x.1| ≤ l.length → ∃ y : Dbl, F64.fin x / F64.fin ⟨((l.length : ℤ) : ℝ), dn⟩ = .fin y := by
    intro x hx
    rw [F64.div_fin n0]
    obtain ⟨y, e, -⟩ := F64.ofReal_abs_le (x := x.1 / ((l.length : ℤ) : ℝ)) 1 (by norm_num) (by
      push_cast
      rw [abs_div, abs_of_pos (by linarith : (0 : ℝ) < l.length), div_le_one (by linarith)]
      exact hx)
    exact ⟨y, e⟩
  obtain ⟨y1, e1⟩ := q c hc
  obtain ⟨y2, e2⟩ := q d hd
  rw [en, e1, e2]
  exact LibM.atan2_le y1 y2

theorem deviation_f64 {m : Dbl} (hm : |m.1| ≤ Real.pi) {p : F64} (hp : InTurn p) (fuel : ℕ) (hf : 2 ≤ fuel) :
    ∃ d : Dbl, deviation fuel (F64.fin m) p = some (.fin d) ∧ |d.1| ≤ 4 := by
  obtain ⟨f, rfl⟩ : ∃ f, fuel = f + 2 := ⟨fuel - 2, by omega⟩
  obtain ⟨p, rfl, hp7⟩ := hp.small
  have hpi := Real.pi_lt_d2
  have hm4 : |m.1| ≤ 4 := by linarith
  rw [abs_le] at hm4 hp7
  have hb := F64.tau_bounds
  have hpd := piDouble_bounds
  have stop1 : ∀ (n : ℕ) (x : Dbl), x.1 ≤ piDouble → halfTurnDown n (F64.fin x) = some (.fin x) := by
    intro n x hx
    have : ¬ F64.fin x > piMul 1 := by rw [F64.piMul_one]; exact not_lt.2 hx
    cases n <;> (unfold halfTurnDown; rw [if_neg this])
  have stop2 : ∀ (n : ℕ) (x : Dbl), -piDouble ≤ x.1 → halfTurnUp n (F64.fin x) = some (.fin x) := by
    intro n x hx
    have : ¬ F64.fin x < -piMul 1 := by rw [F64.piMul_one]; exact not_lt.2 hx
    cases n <;> (unfold halfTurnUp; rw [if_neg this])
  have down : ∀ (n : ℕ) (x : Dbl) (l u : ℤ), |l| < 2 ^ 53 → |u| < 2 ^ 53 → piDouble < x.1 → l ≤ x.1 - F64.tau.1 →
      x.1 - F64.tau.1 ≤ u → ∃ y : Dbl, halfTurnDown (n + 1) (F64.fin x) = halfTurnDown n (.fin y) ∧ l ≤ y.1 ∧ y.1 ≤ u := by
    intro n x l u hl hu hx h1 h2
    obtain ⟨y, e, y1, y2⟩ := F64.ofReal_int_between l u hl hu h1 h2
    refine ⟨y, ?_, y1, y2⟩
    have : F64.fin x > piMul 1 := by rw [F64.piMul_one]; exact hx
    rw [halfTurnDown, if_pos this, F64.piMul_two, F64.sub_fin, e]
  have up : ∀ (n : ℕ) (x : Dbl) (l u : ℤ), |l| < 2 ^ 53 → |u| < 2 ^ 53 → x.1 < -piDouble → l ≤ x.1 + F64.tau.1 →
      x.1 + F64.tau.1 ≤ u → ∃ y : Dbl, halfTurnUp (n + 1) (F64.fin x) = halfTurnUp n (.fin y) ∧ l ≤ y.1 ∧ y.1 ≤ u := by
    intro n x l u hl hu hx h1 h2
    obtain ⟨y, e, y1, y2⟩ := F64.ofReal_int_between l u hl hu h1 h2
    refine ⟨y, ?_, y1, y2⟩
    have : F64.fin x < -piMul 1 := by rw [F64.piMul_one]; exact hx
    rw [halfTurnUp, if_pos this, F64.piMul_two, F64.add_fin, e]
  have hdown : ∀ x : Dbl, -11 ≤ x.1 → x.1 ≤ 11 → ∃ y : Dbl, halfTurnDown (f + 2) (F64.fin x) = some (.fin y) ∧
      -11 ≤ y.1 ∧ y.1 ≤ 4 := by
    intro x h1 h2
    by_cases hx : x.1 ≤ piDouble
    · exact ⟨x, stop1 _ _ hx, h1, by linarith⟩
    obtain ⟨y, e, y1, y2⟩ := down (f + 1) x (-4) 5 (by norm_num) (by norm_num) (not_le.1 hx) (by push_cast; linarith)
      (by push_cast; linarith)
    push_cast at y1 y2
    rw [e]
    by_cases hy : y.1 ≤ piDouble
    · exact ⟨y, stop1 _ _ hy, by linarith, by linarith⟩
    obtain ⟨z, e, z1, z2⟩ := down f y (-4) (-1) (by norm_num) (by norm_num) (not_le.1 hy) (by push_cast; linarith)
      (by push_cast; linarith)
    push_cast at z1 z2
    rw [e]
    exact ⟨z, stop1 _ _ (by linarith), by linarith, by linarith⟩
  have hup : ∀ x : Dbl, -11 ≤ x.1 → x.1 ≤ 4 → ∃ y : Dbl, halfTurnUp (f + 2) (F64.fin x) = some (.fin y) ∧ |y.1| ≤ 4 := by
    intro x h1 h2
    by_cases hx : -piDouble ≤ x.1
    · exact ⟨x, stop2 _ _ hx, abs_le.2 ⟨by linarith, by linarith⟩⟩
    obtain ⟨y, e, y1, y2⟩ := up (f + 1) x (-5) 4 (by norm_num) (by norm_num) (not_le.1 hx) (by push_cast; linarith)
      (by push_cast; linarith)
    push_cast at y1 y2
    rw [e]
    by_cases hy : -piDouble ≤ y.1
    · exact ⟨y, stop2 _ _ hy, abs_le.2 ⟨by linarith, by linarith⟩⟩
    obtain ⟨z, e, z1, z2⟩ := up f y 1 4 (by norm_num) (by norm_num) (not_le.1 hy) (by push_cast; linarith)
      (by push_cast; linarith)
    push_cast at z1 z2
    rw [e]
    exact ⟨z, stop2 _ _ (by linarith), abs_le.2 ⟨by linarith, by linarith⟩⟩
  obtain ⟨x, ex, x1, x2⟩ := F64.ofReal_int_between (x := p.1 - m.1) (-11) 11 (by norm_num) (by norm_num)
    (by push_cast; linarith) (by push_cast; linarith)
  push_cast at x1 x2
  obtain ⟨y, ey, y1, y2⟩ := hdown x x1 x2
  obtain ⟨z, ez, hz⟩ := hup y y1 y2
  refine ⟨z, ?_, hz⟩
  unfold deviation
  rw [F64.sub_fin, ex, ey]
  exact ez

theorem varianceLoop_f64 {m : Dbl} (hm : |m.1| ≤ Real.pi) (fuel : ℕ) (hf : 2 ≤ fuel) (l : List F64)
    (hl : ∀ p ∈ l, InTurn p) (k : ℕ) (s : Dbl) (h0 : 0 ≤ s.1) (h1 : s.1 ≤ (16 * k : ℕ)) (hk : 16 * (k + l.length) < 2 ^ 53) :
    ∃ v : Dbl, varianceLoop fuel (F64.fin m) l (.fin s) = some (.fin v) ∧ 0 ≤ v.1 ∧ v.1 ≤ (16 * (k + l.length) : ℕ) := by
  induction l generalizing k s with
  | nil => exact ⟨s, rfl, h0, h1⟩
  | cons p ps ih =>
    rw [List.length_cons] at hk
    obtain ⟨d, e, hd⟩ := deviation_f64 hm (hl p List.mem_cons_self) fuel hf
    have hsq : 0 ≤ d.1 * d.1 ∧ d.1 * d.1 ≤ 16 := ⟨mul_self_nonneg _, by rw [← abs_mul_abs_self]; nlinarith [abs_nonneg d.1]⟩
    obtain ⟨q, eq, q0, q1⟩ := F64.ofReal_int_between (x := d.1 * d.1) 0 16 (by norm_num) (by norm_num)
      (by push_cast; exact hsq.1) (by push_cast; exact hsq.2)
    push_cast at q0 q1
    obtain ⟨r, er, r0, r1⟩ := F64.ofReal_int_between (x := s.1 + q.1) 0 ((16 * (k + 1) : ℕ) : ℤ) (by norm_num)
      (by rw [abs_of_nonneg (by positivity)]; omega) (by push_cast; linarith) (by push_cast at h1 ⊢; linarith)
    unfold varianceLoop
    rw [e, Option.bind_some, F64.mul_fin, eq, F64.add_fin, er, List.length_cons,
      show k + (ps.length + 1) = k + 1 + ps.length by omega]
    exact ih (fun x hx => hl x (List.mem_cons_of_mem _ hx)) (k + 1) r (by exact_mod_cast r0) (by exact_mod_cast r1) (by omega)

/-- **C57, phase variance in doubles**, for up to 10^14 agents: both normalising loops end after at most two iterations and
the result is a number between 0 and 16. -/
theorem C57_variance_double (l : List F64) (hn : l.length ≤ 10 ^ 14) (h : ∀ p ∈ l, InTurn p) (fuel : ℕ) (hf : 2 ≤ fuel) :
    ∃ v : Dbl, phaseVariance fuel l = some (.fin v) ∧ 0 ≤ v.1 ∧ v.1 ≤ 16 := by
  unfold phaseVariance
  split_ifs with h0
  · exact ⟨_, rfl, le_rfl, by norm_num⟩
  have hl : l ≠ [] := by simpa using h0
  have hn1 : (1 : ℝ) ≤ l.length := by exact_mod_cast List.length_pos_iff.2 hl
  obtain ⟨m, em, hm⟩ := meanPhase_f64 l hl (by omega) fun x hx => (h x hx).finite
  obtain ⟨v, ev, v0, v1⟩ := varianceLoop_f64 hm fuel hf l h 0 ⟨0, isDouble_zero⟩ le_rfl (by simp) (by omega)
  have dn : IsDouble ((l.length : ℤ) : ℝ) := isDouble_int (by rw [abs_of_nonneg (by positivity)]; omega)
  have en : (ofInt (l.length : ℤ) : F64) = .fin ⟨_, dn⟩ := F64.ofReal_of_isDouble dn
  rw [zero_add] at v1
  obtain ⟨q, e, q0, q1⟩ := F64.ofReal_int_between (x := v.1 / ((l.length : ℤ) : ℝ)) 0 16 (by norm_num) (by norm_num)
    (by push_cast; positivity) (by push_cast at v1 ⊢; rw [div_le_iff₀ (by linarith)]; exact v1)
  push_cast at q0 q1
  refine ⟨q, ?_, q0, q1⟩
  rw [em, F64.zero_def, ev, Option.map_some, en, F64.div_fin (show ((l.length : ℤ) : ℝ) ≠ 0 by push_cast; linarith), e]

example : ∃ (l : List F64) (t : F64), l.length = 2 ∧ InTurn t ∧ ∀ p ∈ l, InTurn p := by
  have hz : InTurn (0 : F64) := ⟨_, rfl, le_rfl, by linarith [F64.tau_bounds.1]⟩
  have ho : InTurn (1 : F64) := ⟨_, rfl, zero_le_one, by dsimp only; linarith [F64.tau_bounds.1]⟩
  exact ⟨[0, 1], 1, rfl, ho, by
    intro p hp
    simp only [List.mem_cons, List.not_mem_nil, or_false] at hp
    rcases hp with rfl | rfl
    · exact hz
    · exact ho⟩

end doubles

end Verif
