import Verif.Props.PhasePanels

/-!
# C106, C107: the colours of the agents and the picture of the swarm
-/

set_option autoImplicit false
set_option linter.unusedSectionVars false

namespace Verif
open GoMath Spec

local notation "π" => Real.pi

/-! ### C106: colours -/

theorem foldl_sum_map (l : List ℝ) (f : ℝ → ℝ) (s : ℝ) : l.foldl (fun s p => s + f p) s = s + (l.map f).sum := by
  induction l generalizing s with
  | nil => simp
  | cons a l ih => rw [List.foldl_cons, ih]; simp; ring

theorem total_re (l : List ℝ) : (total l).re = (l.map Real.cos).sum := by
  induction l with
  | nil => simp [total]
  | cons a l ih =>
    have : total (a :: l) = Spec.unit a + total l := by simp [total]
    rw [this, Complex.add_re, ih, List.map_cons, List.sum_cons, Spec.unit, Complex.exp_ofReal_mul_I_re]

theorem total_im (l : List ℝ) : (total l).im = (l.map Real.sin).sum := by
  induction l with
  | nil => simp [total]
  | cons a l ih =>
    have : total (a :: l) = Spec.unit a + total l := by simp [total]
    rw [this, Complex.add_im, ih, List.map_cons, List.sum_cons, Spec.unit, Complex.exp_ofReal_mul_I_im]

theorem meanField_real (l : List ℝ) (hn : l ≠ []) :
    meanField l = (Complex.arg (total l / (l.length : ℝ)), ‖total l / (l.length : ℝ)‖) := by
  have hpos : (0 : ℝ) < l.length := by exact_mod_cast List.length_pos_of_ne_nil hn
  have e : total l / ((l.length : ℝ) : ℂ) = ⟨(l.map Real.cos).sum / l.length, (l.map Real.sin).sum / l.length⟩ := by
    apply Complex.ext
    · rw [Complex.div_ofReal_re, total_re]
    · rw [Complex.div_ofReal_im, total_im]
  unfold meanField
  simp only [GoMath.sin_real, GoMath.cos_real, GoMath.ofInt_real, Int.cast_natCast, gt_iff_lt, hpos, if_true, GoMath.atan2_real, GoMath.sqrt_real,
    foldl_sum_map, zero_add]
  rw [e, Complex.norm_def, Complex.normSq_mk, add_comm (_ * _)]

/-- **C106** The mean field of a swarm: its magnitude is the coherence, its phase the direction of the sum of the agents' unit vectors. -/
theorem C106_field (l : List ℝ) (hn : l ≠ []) :
    (meanField l).2 = measureCoherence l ∧ total l = ‖total l‖ * Spec.unit (meanField l).1 ∧ -π < (meanField l).1 ∧ (meanField l).1 ≤ π := by
  have hpos : (0 : ℝ) < l.length := by exact_mod_cast List.length_pos_of_ne_nil hn
  rw [meanField_real l hn, C03_coherence_eq_orderParameter, orderParameter_eq_total]
  refine ⟨?_, ?_, Complex.neg_pi_lt_arg _, Complex.arg_le_pi _⟩
  · rw [norm_div, Complex.norm_real, Real.norm_of_nonneg hpos.le]
  · have : Complex.arg (total l / (l.length : ℝ)) = Complex.arg (total l) := by
      rw [div_eq_mul_inv, ← Complex.ofReal_inv, Complex.arg_mul_real (inv_pos.2 hpos)]
    simp only [this, Spec.unit]
    exact (Complex.norm_mul_exp_arg_mul_I _).symm

/-- **C106** In a swarm of low coherence the colour goes by the phase: yellow up to π/3, cyan up to π, then magenta. Red, the first of the four, is never used. -/
theorem C106_scattered (p m c : ℝ) (h0 : 0 ≤ p) (hc : c < 0.3) :
    agentShade p m c = if p < π / 3 then .yellow else if p < π then .cyan else .magenta := by
  have hp := Real.pi_pos
  unfold agentShade
  rw [if_pos hc]
  simp only [GoMath.piMul_real, GoMath.toInt_real]
  rw [show (((1 : ℚ) : ℝ) * π) = π by norm_num, show (((2 : ℚ) : ℝ) * π) = 2 * π by norm_num, show (3.0 : ℝ) = 3 by norm_num,
    rtrunc_floor ((p + π) * 3 / (2 * π)) (by positivity)]
  have hf : ∀ k : ℤ, ⌊(p + π) * 3 / (2 * π)⌋ = k ↔ (2 * k - 3) * π ≤ 3 * p ∧ 3 * p < (2 * k - 1) * π := by
    intro k
    rw [Int.floor_eq_iff, le_div_iff₀ (by positivity), div_lt_iff₀ (by positivity)]
    constructor
    · rintro ⟨a, b⟩; constructor <;> linarith
    · rintro ⟨a, b⟩; constructor <;> linarith
  split_ifs with h1 h2
  · rw [(hf 1).2 ⟨by push_cast; linarith, by push_cast; linarith⟩]; rfl
  · rw [(hf 2).2 ⟨by push_cast; linarith, by push_cast; linarith⟩]; rfl
  · have n0 : ⌊(p + π) * 3 / (2 * π)⌋ ≠ 0 := fun h => by have := (hf 0).1 h; push_cast at this; linarith
    have n1 : ⌊(p + π) * 3 / (2 * π)⌋ ≠ 1 := fun h => by have := (hf 1).1 h; push_cast at this; linarith
    have n2 : ⌊(p + π) * 3 / (2 * π)⌋ ≠ 2 := fun h => by have := (hf 2).1 h; push_cast at this; linarith
    generalize ⌊(p + π) * 3 / (2 * π)⌋ = z at *
    split <;> simp_all

/-- In a coherent swarm an agent is green exactly when it is close to the mean phase, close meaning nearer than the fraction of half a turn by which the
coherence falls short of 1. -/
def C106_claim : Prop := ∀ (l : List ℝ), OnCircle l → 0.3 ≤ measureCoherence l → ∀ p ∈ l, ∀ d, IsCircDist p (meanField l).1 d →
  (agentShade p (meanField l).1 (meanField l).2 = .green ↔ d < π * (1 - measureCoherence l))

theorem agentShade_coherent (p m c : ℝ) (hc : 0.3 ≤ c) : agentShade p m c =
    if (if |p - m| > π then 2 * π - |p - m| else |p - m|) < π * (1 - c) then .green else .red := by
  unfold agentShade
  rw [if_neg (not_lt.2 hc)]
  simp only [GoMath.abs_real, GoMath.piMul_real]
  rw [show (((1 : ℚ) : ℝ) * π) = π by norm_num, show (((2 : ℚ) : ℝ) * π) = 2 * π by norm_num]

theorem circ_fold (p m : ℝ) (h : |p - m| ≤ 2 * π) : IsCircDist p m (if |p - m| > π then 2 * π - |p - m| else |p - m|) := by
  have hp := Real.pi_pos
  split_ifs with h1
  · rcases le_total 0 (p - m) with h0 | h0
    · rw [abs_of_nonneg h0] at *
      have := isCircDist_of_le (a := p) (b := m) (m := p - m - 2 * π) ⟨1, by push_cast; ring⟩ (by rw [abs_of_nonpos (by linarith)]; linarith)
      rwa [abs_of_nonpos (by linarith), neg_sub] at this
    · rw [abs_of_nonpos h0] at *
      have := isCircDist_of_le (a := p) (b := m) (m := p - m + 2 * π) ⟨-1, by push_cast; ring⟩ (by rw [abs_of_nonneg (by linarith)]; linarith)
      rwa [abs_of_nonneg (by linarith), show p - m + 2 * π = 2 * π - -(p - m) by ring] at this
  · exact isCircDist_of_le (a := p) (b := m) (m := p - m) ⟨0, by push_cast; ring⟩ (not_lt.1 h1)

/-- **C106** (partial) The claim holds for agents less than a turn ahead of the mean phase as computed, which lies between −π and π; so for all agents when
the mean phase is positive. -/
theorem C106_green_partial (l : List ℝ) (ho : OnCircle l) (hc : 0.3 ≤ measureCoherence l) (p : ℝ) (hp : p ∈ l) (d : ℝ)
    (hd : IsCircDist p (meanField l).1 d) (hlt : p - (meanField l).1 ≤ 2 * π) :
    agentShade p (meanField l).1 (meanField l).2 = .green ↔ d < π * (1 - measureCoherence l) := by
  have hpi := Real.pi_pos
  have hn : l ≠ [] := by rintro rfl; simp at hp
  obtain ⟨e, -, h1, h2⟩ := C106_field l hn
  have hdist := circ_fold p (meanField l).1 (by rw [abs_le]; constructor <;> linarith [(ho p hp).1])
  rw [e, agentShade_coherent _ _ _ hc, circDist_unique hd hdist]
  exact ite_green (by decide)

/-- **C106** Agents more than a turn ahead of the computed mean phase are green, however far they are from it. -/
theorem C106_always_green (p m c : ℝ) (hc : 0.3 ≤ c) (hc1 : c ≤ 1) (h : 2 * π < p - m) : agentShade p m c = .green := by
  have hpi := Real.pi_pos
  rw [agentShade_coherent p m c hc, abs_of_pos (by linarith), if_pos (show p - m > π by linarith), if_pos]
  have : 0 ≤ π * (1 - c) := mul_nonneg hpi.le (by linarith)
  linarith

/-- **C106** In a fully synchronised swarm no agent is green. -/
theorem C106_synchronised (n : ℕ) (hn : n ≠ 0) (p : ℝ) (h0 : 0 ≤ p) (h1 : p < 2 * π) :
    agentShade p (meanField (List.replicate n p)).1 (meanField (List.replicate n p)).2 = .red := by
  have hpi := Real.pi_pos
  have hl : List.replicate n p ≠ [] := by simpa using hn
  have hpos : (0 : ℝ) < n := by exact_mod_cast Nat.pos_of_ne_zero hn
  obtain ⟨e, e2, m1, m2⟩ := C106_field _ hl
  have hc : measureCoherence (List.replicate n p) = 1 := by
    rw [C03_coherence_eq_orderParameter, orderParameter_eq_total, total_replicate, norm_mul, norm_unit, List.length_replicate]
    simp [hpos.ne']
  rw [total_replicate, norm_mul, norm_unit, Complex.norm_natCast, mul_one] at e2
  have hu : Spec.unit p = Spec.unit (meanField (List.replicate n p)).1 := mul_left_cancel₀ (by exact_mod_cast hpos.ne') e2
  rw [e, hc]
  generalize (meanField (List.replicate n p)).1 = m at *
  obtain ⟨k, hk⟩ := Complex.exp_eq_exp_iff_exists_int.1 hu
  have hk' : p = m + k * (2 * π) := by
    have hI : (p : ℂ) * Complex.I = ((m : ℂ) + k * (2 * π)) * Complex.I := by rw [hk]; ring
    have := mul_right_cancel₀ Complex.I_ne_zero hI
    exact_mod_cast this
  have k0 : (-1 : ℝ) < k := by
    by_contra hcon
    have : (k : ℝ) * (2 * π) ≤ -1 * (2 * π) := mul_le_mul_of_nonneg_right (not_lt.1 hcon) (by positivity)
    linarith
  have k1 : (k : ℝ) < 2 := by
    by_contra hcon
    have : 2 * (2 * π) ≤ (k : ℝ) * (2 * π) := mul_le_mul_of_nonneg_right (not_lt.1 hcon) (by positivity)
    linarith
  have hk01 : k = 0 ∨ k = 1 := by
    have : (-1 : ℤ) < k := by exact_mod_cast k0
    have : k < (2 : ℤ) := by exact_mod_cast k1
    omega
  rw [agentShade_coherent _ _ _ (by norm_num), if_neg]
  rw [not_lt]
  rcases hk01 with rfl | rfl
  · simp [hk', not_lt.2 hpi.le]
  · have : p - m = 2 * π := by rw [hk']; push_cast; ring
    rw [this, abs_of_pos (by positivity), if_pos (by linarith)]; simp

namespace Spec

/-- Eight agents at three quarters of the circle, and one a sixth of the circle on either side of them. -/
noncomputable def eightAndTwo : List ℝ := List.replicate 8 (3 * π / 2) ++ [3 * π / 2 - π / 3, 3 * π / 2 + π / 3]

end Spec

theorem eightAndTwo_total : total eightAndTwo = 9 * Spec.unit (3 * π / 2) := by
  have : total [3 * π / 2 - π / 3, 3 * π / 2 + π / 3] = Spec.unit (3 * π / 2) := by
    apply Complex.ext
    · rw [total_re]
      simp only [List.map_cons, List.map_nil, List.sum_cons, List.sum_nil, Spec.unit, Complex.exp_ofReal_mul_I_re]
      rw [Real.cos_sub, Real.cos_add, Real.cos_pi_div_three]; ring
    · rw [total_im]
      simp only [List.map_cons, List.map_nil, List.sum_cons, List.sum_nil, Spec.unit, Complex.exp_ofReal_mul_I_im]
      rw [Real.sin_sub, Real.sin_add, Real.cos_pi_div_three]; ring
  rw [eightAndTwo, total_append, this, total_replicate]; push_cast; ring

theorem eightAndTwo_field : meanField eightAndTwo = (-(π / 2), 0.9) := by
  have hpi := Real.pi_pos
  rw [meanField_real _ (by simp [eightAndTwo]), eightAndTwo_total]
  have hl : eightAndTwo.length = 10 := by simp [eightAndTwo]
  have hu : Spec.unit (3 * π / 2) = Spec.unit (-(π / 2)) := by
    rw [show 3 * π / 2 = -(π / 2) + (π + π) by ring, unit_add, unit_add, unit_pi]; ring
  rw [hl, hu]
  have e : (9 * Spec.unit (-(π / 2)) / (((10 : ℕ) : ℝ) : ℂ)) = ((0.9 : ℝ) : ℂ) * Spec.unit (-(π / 2)) := by push_cast; ring
  rw [e, Complex.arg_real_mul _ (by norm_num), norm_mul, norm_unit, Complex.norm_real, Real.norm_of_nonneg (by norm_num), mul_one]
  congr 1
  rw [Spec.unit, Complex.arg_exp_mul_I, toIocMod_eq_self]
  constructor <;> linarith

/-- **C106** Of the two agents a sixth of the circle before and after the mean phase, the one is red and the other green. -/
theorem C106_sides : OnCircle eightAndTwo ∧ 0.3 ≤ measureCoherence eightAndTwo ∧
    agentShade (3 * π / 2 - π / 3) (meanField eightAndTwo).1 (meanField eightAndTwo).2 = .red ∧
    agentShade (3 * π / 2 + π / 3) (meanField eightAndTwo).1 (meanField eightAndTwo).2 = .green := by
  have hpi := Real.pi_pos
  refine ⟨?_, ?_, ?_, ?_⟩
  · intro p hp
    simp only [eightAndTwo, List.mem_append, List.mem_replicate, List.mem_cons, List.not_mem_nil, or_false] at hp
    rcases hp with ⟨-, rfl⟩ | rfl | rfl <;> constructor <;> linarith
  · rw [← (C106_field _ (by simp [eightAndTwo])).1, eightAndTwo_field]; norm_num
  · rw [eightAndTwo_field, agentShade_coherent _ _ _ (by norm_num)]
    rw [show 3 * π / 2 - π / 3 - -(π / 2) = 5 * π / 3 by ring, abs_of_pos (by positivity), if_pos (show 5 * π / 3 > π by linarith),
      if_neg (by norm_num; linarith)]
  · rw [eightAndTwo_field]
    exact C106_always_green _ _ _ (by norm_num) (by norm_num) (by linarith)

/-- Of ten agents two are a sixth of the circle ahead of the mean phase and nevertheless green. -/
theorem C106_refuted : ¬ C106_claim := by
  intro h
  have hpi := Real.pi_pos
  obtain ⟨h1, h2, -, h4⟩ := C106_sides
  have hd : IsCircDist (3 * π / 2 + π / 3) (meanField eightAndTwo).1 (π / 3) := by
    rw [eightAndTwo_field]
    have := isCircDist_of_le (a := 3 * π / 2 + π / 3) (b := -(π / 2)) (m := π / 3) ⟨1, by push_cast; ring⟩ (by rw [abs_of_pos (by positivity)]; linarith)
    rwa [abs_of_pos (by positivity)] at this
  have := (h _ h1 h2 _ (by simp [eightAndTwo]) _ hd).1 h4
  rw [← (C106_field _ (by simp [eightAndTwo])).1, eightAndTwo_field] at this
  norm_num at this
  linarith

/-! ### C107: the picture of the swarm -/

namespace Spec

/-- The radius on which agents are drawn. -/
noncomputable def radius (coherence : ℝ) : ℝ := if coherence > 0.5 then 2 + 3 * (1 - coherence) else 5

end Spec

theorem cellOffset_real (c : ℝ) (i : ℕ) (p : ℝ) : cellOffset c i p =
    (rtrunc (radius c * Real.cos (p + i * π / 10)), rtrunc (radius c * Real.sin (p + i * π / 10) / 2)) := by
  unfold cellOffset radius
  simp only [GoMath.toInt_real, GoMath.cos_real, GoMath.sin_real, GoMath.piMul_real, GoMath.ofInt_real, Int.cast_natCast]
  norm_num

theorem radius_mem (c : ℝ) (h1 : c ≤ 1) : 2 ≤ radius c ∧ radius c ≤ 5 := by
  unfold radius
  split_ifs with h
  · norm_num at h; constructor <;> linarith
  · norm_num

theorem rtrunc_bound (x : ℝ) (n : ℕ) (h : |x| ≤ n) : |rtrunc x| ≤ n := by
  have hx := abs_le.1 h
  unfold rtrunc
  rw [abs_le]
  split_ifs with h0
  · exact ⟨by have := Int.floor_nonneg.2 h0; omega, by exact_mod_cast (Int.floor_le x).trans hx.2⟩
  · refine ⟨?_, ?_⟩
    · rw [Int.le_ceil_iff]; push_cast; linarith
    · rw [Int.ceil_le]; push_cast; linarith

theorem rtrunc_zero_iff (x : ℝ) : rtrunc x = 0 ↔ |x| < 1 := by
  unfold rtrunc
  rw [abs_lt]
  split_ifs with h0
  · rw [Int.floor_eq_zero_iff]
    constructor
    · rintro ⟨a, b⟩; exact ⟨by linarith, b⟩
    · rintro ⟨a, b⟩; exact ⟨h0, b⟩
  · rw [Int.ceil_eq_zero_iff]
    constructor
    · rintro ⟨a, b⟩; exact ⟨a, by linarith⟩
    · rintro ⟨a, b⟩; exact ⟨a, by linarith⟩

/-- **C107** No agent is drawn outside the grid: the bounds checks never fail. An agent is missing exactly when it falls on the centre. -/
theorem C107_bounds (c : ℝ) (h1 : c ≤ 1) (i : ℕ) (p : ℝ) :
    let o := cellOffset c i p
    |o.1| ≤ 5 ∧ |o.2| ≤ 2 ∧ (cellDrawn o = true ↔ o ≠ (0, 0)) := by
  intro o
  obtain ⟨r1, r2⟩ := radius_mem c h1
  have ho : o = _ := cellOffset_real c i p
  have hx : |o.1| ≤ 5 := by
    rw [ho]
    refine rtrunc_bound _ 5 ?_
    rw [abs_mul, abs_of_nonneg (by linarith)]
    have := Real.abs_cos_le_one (p + i * π / 10)
    push_cast
    nlinarith [abs_nonneg (Real.cos (p + i * π / 10))]
  have hy : |o.2| ≤ 2 := by
    rw [ho]
    have hs := Real.abs_sin_le_one (p + i * π / 10)
    have hb : |radius c * Real.sin (p + i * π / 10) / 2| ≤ 5 / 2 := by
      rw [abs_div, abs_mul, abs_of_nonneg (by linarith : (0:ℝ) ≤ radius c), abs_of_pos (by norm_num : (0:ℝ) < 2)]
      nlinarith [abs_nonneg (Real.sin (p + i * π / 10))]
    rw [abs_le] at hb ⊢
    generalize radius c * Real.sin (p + i * π / 10) / 2 = x at *
    show -2 ≤ rtrunc x ∧ rtrunc x ≤ 2
    unfold rtrunc
    split_ifs with h0
    · exact ⟨by have := Int.floor_nonneg.2 h0; omega, by rw [← Int.lt_add_one_iff, Int.floor_lt]; push_cast; linarith [hb.2]⟩
    · refine ⟨?_, ?_⟩
      · rw [Int.le_ceil_iff]; push_cast; linarith [hb.1]
      · rw [Int.ceil_le]; push_cast; linarith
  refine ⟨hx, hy, ?_⟩
  unfold cellDrawn
  rw [decide_eq_true_iff]
  rw [abs_le] at hx hy
  obtain ⟨a, b⟩ := o
  simp only [ne_eq, Prod.mk.injEq] at *
  omega

/-- Every one of the first twenty agents is drawn. -/
def C107_claim : Prop := ∀ (c : ℝ), 0 ≤ c → c ≤ 1 → ∀ (i : ℕ) (p : ℝ), i < 20 → cellDrawn (cellOffset c i p) = true

/-- **C107** An agent is drawn exactly when it is at least one column or one row off the centre. -/
theorem C107_drawn (c : ℝ) (h1 : c ≤ 1) (i : ℕ) (p : ℝ) :
    cellDrawn (cellOffset c i p) = true ↔ 1 ≤ radius c * |Real.cos (p + i * π / 10)| ∨ 2 ≤ radius c * |Real.sin (p + i * π / 10)| := by
  obtain ⟨r1, r2⟩ := radius_mem c h1
  rw [(C107_bounds c h1 i p).2.2, cellOffset_real, ne_eq, Prod.mk.injEq, rtrunc_zero_iff, rtrunc_zero_iff, not_and_or, not_lt, not_lt, abs_mul, abs_div,
    abs_mul, abs_of_nonneg (by linarith : (0:ℝ) ≤ radius c), abs_of_pos (by norm_num : (0:ℝ) < 2), le_div_iff₀ (by norm_num), one_mul]

/-- **C107** (partial) Up to a coherence of 0.92 the claim holds. -/
theorem C107_drawn_partial (c : ℝ) (h1 : c ≤ 0.92) (i : ℕ) (p : ℝ) : cellDrawn (cellOffset c i p) = true := by
  have h1' : c ≤ 1 := by norm_num at h1; linarith
  rw [C107_drawn c h1']
  have hr : (2.24 : ℝ) ≤ radius c := by
    unfold radius
    split_ifs
    · norm_num at h1 ⊢; linarith
    · norm_num
  norm_num at hr
  by_contra hcon
  rw [not_or, not_le, not_le] at hcon
  have e := Real.sin_sq_add_cos_sq (p + i * π / 10)
  rw [← sq_abs, ← sq_abs (Real.cos _)] at e
  have hs0 : 0 ≤ |Real.sin (p + i * π / 10)| := abs_nonneg _
  generalize |Real.sin (p + i * π / 10)| = s at *
  have hs : 0 ≤ |Real.cos (p + i * π / 10)| := abs_nonneg _
  generalize |Real.cos (p + i * π / 10)| = k at *
  have hr2 : (5 : ℝ) < radius c ^ 2 := by nlinarith
  have a1 : (radius c * k) ^ 2 < 1 := by
    have : 0 ≤ radius c * k := by positivity
    nlinarith [hcon.1]
  have a2 : (radius c * s) ^ 2 < 4 := by
    have : 0 ≤ radius c * s := by positivity
    nlinarith [hcon.2]
  nlinarith

/-- **C107** In a fully synchronised swarm agents are missing: those less than a twelfth of the circle from straight up or down, but for the straight ones. -/
theorem C107_missing (i : ℕ) (p : ℝ) :
    cellDrawn (cellOffset 1 i p) = false ↔ |Real.cos (p + i * π / 10)| < 1 / 2 ∧ Real.cos (p + i * π / 10) ≠ 0 := by
  have hr : radius 1 = 2 := by unfold radius; norm_num
  rw [← Bool.not_eq_true, C107_drawn 1 le_rfl, hr, not_or, not_le, not_le]
  have e := Real.sin_sq_add_cos_sq (p + i * π / 10)
  rw [← sq_abs] at e
  have hs : 0 ≤ |Real.sin (p + i * π / 10)| := abs_nonneg _
  generalize |Real.sin (p + i * π / 10)| = s at *
  refine and_congr ⟨fun h => by linarith, fun h => by linarith⟩ ⟨fun h h0 => ?_, fun h => ?_⟩
  · rw [h0] at e; nlinarith
  · have : 0 < Real.cos (p + i * π / 10) ^ 2 := by positivity
    nlinarith

/-- In a synchronised swarm an agent near the top falls on the centre and is left out. -/
theorem C107_refuted : ¬ C107_claim := by
  intro h
  have := h 1 (by norm_num) le_rfl 0 (π / 2 - 0.1) (by norm_num)
  have hm := (C107_missing 0 (π / 2 - 0.1)).2 (by
    rw [show π / 2 - 0.1 + ((0 : ℕ) : ℝ) * π / 10 = π / 2 - 0.1 by simp, Real.cos_pi_div_two_sub]
    have a := Real.sin_pos_of_pos_of_lt_pi (x := 0.1) (by norm_num) (by have := Real.pi_gt_three; norm_num; linarith)
    have b := Real.sin_lt (x := 0.1) (by norm_num)
    refine ⟨?_, a.ne'⟩
    rw [abs_of_pos a]; norm_num at b ⊢; linarith)
  rw [this] at hm
  cases hm

/-- At coherence 0.9 an agent at phase 1 is drawn. -/
example : cellDrawn (cellOffset (0.9 : ℝ) 3 1) = true := C107_drawn_partial 0.9 (by norm_num) 3 1

/-- For C106: in a swarm of three at the same phase all are red; agents far past the mean field are green. -/
example : agentShade (1 : ℝ) (meanField (List.replicate 3 (1 : ℝ))).1 (meanField (List.replicate 3 (1 : ℝ))).2 = .red ∧
    agentShade (6 : ℝ) (-1) 0.5 = .green ∧ agentShade (1 : ℝ) 3 0.2 = .yellow := by
  have h1 := Real.pi_gt_three
  have h2 := Real.pi_lt_d2
  refine ⟨C106_synchronised 3 (by norm_num) 1 (by norm_num) (by linarith), C106_always_green 6 (-1) 0.5 (by norm_num) (by norm_num) (by linarith), ?_⟩
  rw [C106_scattered 1 3 0.2 (by norm_num) (by norm_num), if_pos (by linarith)]

/-- For C107: at a coherence of 1 an agent at phase zero is drawn. -/
example : cellDrawn (cellOffset (1 : ℝ) 0 0) = true := by
  rw [← Bool.not_eq_false, C107_missing 0 0]
  norm_num

end Verif
