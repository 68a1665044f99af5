import Verif.Lemmas.Coherence
import Verif.Spec.Pattern
import Mathlib.Analysis.Real.Pi.Bounds

/-!
# C05–C07: weighted coherence, pattern distance, gaps
-/

set_option autoImplicit false

namespace Verif
open Real Spec

/-! ## C05 Weighted coherence -/

theorem foldl_weighted (l : List (ℝ × ℝ)) (a b c : ℝ) :
    l.foldl (fun (s : ℝ × ℝ × ℝ) pw =>
      (s.1 + pw.2 * Real.cos pw.1, s.2.1 + pw.2 * Real.sin pw.1, s.2.2 + pw.2)) (a, b, c) =
      (a + (l.map fun x => x.2 * Real.cos x.1).sum, b + (l.map fun x => x.2 * Real.sin x.1).sum,
        c + (l.map Prod.snd).sum) := by
  induction l generalizing a b c with
  | nil => simp
  | cons x xs ih =>
    simp only [List.foldl_cons, List.map_cons, List.sum_cons, ih]
    refine Prod.ext ?_ (Prod.ext ?_ ?_) <;> simp only <;> ring

theorem sum_weighted_exp (l : List (ℝ × ℝ)) :
    (l.map fun x : ℝ × ℝ => (x.2 : ℂ) * Complex.exp (x.1 * Complex.I)).sum =
      ⟨(l.map fun x => x.2 * Real.cos x.1).sum, (l.map fun x => x.2 * Real.sin x.1).sum⟩ := by
  induction l with
  | nil => apply Complex.ext <;> simp
  | cons x xs ih =>
    rw [List.map_cons, List.sum_cons, ih, Complex.exp_mul_I]
    apply Complex.ext
    · simp [Complex.cos_ofReal_re]
    · simp [Complex.sin_ofReal_re]

/-- The code computes the modulus of the weighted mean of the unit vectors of the common prefix, and 0 when there is
no weight. -/
theorem C05_weighted_eq (phases weights : List ℝ) :
    measureCoherenceWeighted phases weights =
      if ((phases.zip weights).map Prod.snd).sum = 0 then 0
      else weightedOrderParameter (phases.zip weights) := by
  unfold measureCoherenceWeighted
  simp only [GoMath.cos_real, GoMath.sin_real, GoMath.sqrt_real]
  rw [foldl_weighted]
  simp only [zero_add, beq_iff_eq]
  by_cases h : phases.length = 0 ∨ weights.length = 0
  · have : phases.zip weights = [] := by
      rcases h with h | h
      · rw [List.length_eq_zero_iff.mp h]; simp
      · rw [List.length_eq_zero_iff.mp h]; simp
    simp [this]
  · rw [if_neg h]
    split_ifs with h0
    · rfl
    · unfold weightedOrderParameter
      rw [sum_weighted_exp]
      rfl

theorem norm_weighted_le (l : List (ℝ × ℝ)) (h : ∀ x ∈ l, 0 ≤ x.2) :
    ‖(l.map fun x : ℝ × ℝ => (x.2 : ℂ) * Complex.exp (x.1 * Complex.I)).sum‖ ≤ (l.map Prod.snd).sum := by
  induction l with
  | nil => simp
  | cons x xs ih =>
    rw [List.map_cons, List.sum_cons, List.map_cons, List.sum_cons]
    refine (norm_add_le _ _).trans ?_
    have h1 := ih (fun y hy => h y (by simp [hy]))
    have h2 := h x (by simp)
    rw [norm_mul, Complex.norm_exp_ofReal_mul_I, mul_one, Complex.norm_real, Real.norm_of_nonneg h2]
    linarith

/-- With non-negative weights the result is in `[0, 1]`, whatever the lengths. -/
theorem C05_weighted_range (phases weights : List ℝ) (h : ∀ w ∈ weights, 0 ≤ w) :
    0 ≤ measureCoherenceWeighted phases weights ∧ measureCoherenceWeighted phases weights ≤ 1 := by
  rw [C05_weighted_eq]
  have hz : ∀ x ∈ phases.zip weights, 0 ≤ x.2 := fun x hx => h x.2 (List.of_mem_zip hx).2
  split_ifs with h0
  · norm_num
  · have hle := norm_weighted_le _ hz
    have hs : 0 ≤ ((phases.zip weights).map Prod.snd).sum := le_trans (norm_nonneg _) hle
    unfold weightedOrderParameter
    exact ⟨by positivity, div_le_one_of_le₀ hle hs⟩

/-- Equal positive weights give the plain coherence. -/
theorem C05_weighted_const (phases : List ℝ) (w : ℝ) (hw : 0 < w) :
    measureCoherenceWeighted phases (List.replicate phases.length w) = measureCoherence phases := by
  rw [C05_weighted_eq, measureCoherence_eq_orderParameter]
  have hz : phases.zip (List.replicate phases.length w) = phases.map fun p => (p, w) := by
    induction phases with
    | nil => simp
    | cons x xs ih => simp [List.replicate_succ, ih]
  rw [hz]
  have hsum : ((phases.map fun p => (p, w)).map Prod.snd).sum = phases.length * w := by
    rw [List.map_map]
    simp [Function.comp_def]
  rw [hsum]
  by_cases hl : phases = []
  · subst hl; simp [orderParameter]
  · have hn : (0 : ℝ) < phases.length := by
      have := List.length_pos_iff.mpr hl; exact_mod_cast this
    rw [if_neg (by positivity)]
    unfold weightedOrderParameter orderParameter
    rw [hsum]
    have : ((phases.map fun p => (p, w)).map fun x : ℝ × ℝ => (x.2 : ℂ) * Complex.exp (x.1 * Complex.I)).sum =
        (w : ℂ) * (phases.map fun p : ℝ => Complex.exp (p * Complex.I)).sum := by
      rw [List.map_map, ← List.sum_map_mul_left]; rfl
    rw [this, norm_mul, Complex.norm_real, Real.norm_of_nonneg hw.le, mul_comm (phases.length : ℝ) w]
    exact mul_div_mul_left _ _ hw.ne'

/-- Surplus phases or surplus weights are ignored. -/
theorem C05_weighted_truncates (phases weights extra : List ℝ) (h : phases.length = weights.length) :
    measureCoherenceWeighted (phases ++ extra) weights = measureCoherenceWeighted phases weights ∧
    measureCoherenceWeighted phases (weights ++ extra) = measureCoherenceWeighted phases weights := by
  have z1 : (phases ++ extra).zip weights = phases.zip weights := by
    have := List.zip_append (l₁ := phases) (r₁ := extra) (l₂ := weights) (r₂ := []) h
    simpa using this
  have z2 : phases.zip (weights ++ extra) = phases.zip weights := by
    have := List.zip_append (l₁ := phases) (r₁ := []) (l₂ := weights) (r₂ := extra) h
    simpa using this
  exact ⟨by rw [C05_weighted_eq, C05_weighted_eq, z1], by rw [C05_weighted_eq, C05_weighted_eq, z2]⟩

/-- No weight, no coherence. -/
theorem C05_weighted_zero (phases weights : List ℝ) (h : ((phases.zip weights).map Prod.snd).sum = 0) :
    measureCoherenceWeighted phases weights = 0 := by
  rw [C05_weighted_eq, if_pos h]

/-- With weights of mixed sign the result can leave `[0, 1]` on either side. -/
theorem C05_mixed_sign_out_of_range :
    measureCoherenceWeighted [0, π] [3, -1] = (2 : ℝ) ∧ measureCoherenceWeighted [0] [-1] = (-1 : ℝ) := by
  constructor
  · rw [C05_weighted_eq, if_neg (by norm_num)]
    unfold weightedOrderParameter
    rw [sum_weighted_exp]
    have : (⟨(([0, π].zip [3, -1]).map fun x : ℝ × ℝ => x.2 * Real.cos x.1).sum,
        (([0, π].zip [3, -1]).map fun x : ℝ × ℝ => x.2 * Real.sin x.1).sum⟩ : ℂ) = ((4 : ℝ) : ℂ) := by
      apply Complex.ext <;> norm_num
    rw [this, Complex.norm_real]
    norm_num
  · rw [C05_weighted_eq, if_neg (by norm_num)]
    unfold weightedOrderParameter
    rw [sum_weighted_exp]
    have : (⟨(([0].zip [-1]).map fun x : ℝ × ℝ => x.2 * Real.cos x.1).sum,
        (([0].zip [-1]).map fun x : ℝ × ℝ => x.2 * Real.sin x.1).sum⟩ : ℂ) = ((-1 : ℝ) : ℂ) := by
      apply Complex.ext <;> norm_num
    rw [this, Complex.norm_real]
    norm_num

example : ∀ w ∈ [0.5, 0, 2], (0 : ℝ) ≤ w := by intro w hw; simp at hw; rcases hw with rfl | rfl | rfl <;> norm_num

/-! ## C06 Pattern distance -/

theorem isCircDist_principal (a b : ℝ) : IsCircDist a b |principal (a - b)| := by
  refine ⟨?_, fun k => principal_shortest (a - b) k⟩
  obtain ⟨k, hk⟩ := principal_sameAngle (a - b)
  exact ⟨k, by rw [hk]⟩

theorem circDist_unique {a b d d' : ℝ} (h : IsCircDist a b d) (h' : IsCircDist a b d') : d = d' := by
  obtain ⟨⟨k, hk⟩, hm⟩ := h
  obtain ⟨⟨k', hk'⟩, hm'⟩ := h'
  apply le_antisymm
  · rw [hk']; exact hm k'
  · rw [hk]; exact hm' k

/-- Outside the special pairs the code's |PhaseDifference| is the distance on the circle. -/
theorem isCircDist_phaseDifference {a b : ℝ} (h : ¬ SpecialPair a b) :
    IsCircDist a b |phaseDifference a b| := by
  rw [phaseDifference_eq_principal h]; exact isCircDist_principal a b

theorem not_sameAngle_of_special {a b : ℝ} (h : SpecialPair a b) : ¬ SameAngle a b := by
  rintro ⟨k, hk⟩
  have hp := Real.pi_gt_three
  have key : ∀ e : ℝ, |e| < 1 → ∀ k : ℤ, 3 * π / 2 + e = k * (2 * π) → False := by
    intro e he k hk
    rw [abs_lt] at he
    rcases le_or_gt k 0 with h | h
    · have : (k : ℝ) ≤ 0 := by exact_mod_cast h
      nlinarith
    · have : (1 : ℝ) ≤ k := by exact_mod_cast h
      nlinarith
  rcases h with ⟨h1, h2⟩ | ⟨h1, h2⟩ <;> rw [abs_lt] at h1 h2 <;> norm_num at h1 h2
  · exact key (b - 3 * π / 2 - a) (by rw [abs_lt]; constructor <;> linarith) (-k) (by push_cast; linarith)
  · exact key (a - 3 * π / 2 - b) (by rw [abs_lt]; constructor <;> linarith) k (by linarith)

theorem phaseDifference_eq_zero_iff (a b : ℝ) : phaseDifference a b = 0 ↔ SameAngle a b := by
  have hp := Real.pi_pos
  by_cases h : SpecialPair a b
  · have := not_sameAngle_of_special h
    simp only [this, iff_false]
    rw [phaseDifference_eq]
    rcases h with h | h
    · rw [if_pos h]; linarith
    · split_ifs <;> linarith
  · rw [phaseDifference_eq_principal h]
    constructor
    · intro h0
      obtain ⟨k, hk⟩ := principal_sameAngle (a - b)
      rw [h0] at hk
      exact ⟨-k, by push_cast; linarith⟩
    · rintro ⟨k, hk⟩
      have := principal_shortest (a - b) (-k)
      rw [hk] at this ⊢
      push_cast at this
      have e : b + k * (2 * π) - b + -k * (2 * π) = 0 := by ring
      rw [e, abs_zero] at this
      exact abs_nonpos_iff.mp this

theorem patternDistance_some (c t : TargetPattern ℝ) :
    patternDistance (some c) (some t) =
      0.4 * (|phaseDifference t.phase c.phase| / π) + 0.3 * freqDeviation c t + 0.3 * |t.coherence - c.coherence| := by
  simp only [patternDistance, freqDeviation, GoMath.abs_real, GoMath.fmin_real, GoMath.ofInt_real, GoMath.piMul_real]
  push_cast
  simp

theorem freqDeviation_bounds (c t : TargetPattern ℝ) : 0 ≤ freqDeviation c t ∧ freqDeviation c t ≤ 1 := by
  unfold freqDeviation
  split_ifs with h
  · have : (0 : ℝ) < t.frequency := by exact_mod_cast h
    exact ⟨le_min (by positivity) (by norm_num), min_le_right _ _⟩
  · norm_num

/-- The distance is 40 % phase distance on the circle (in half turns), 30 % relative frequency deviation (capped),
30 % coherence difference — outside the special pairs of C02. -/
theorem C06_distance_formula (c t : TargetPattern ℝ) (h : ¬ SpecialPair t.phase c.phase) (d : ℝ)
    (hd : IsCircDist t.phase c.phase d) :
    patternDistance (some c) (some t) =
      0.4 * (d / π) + 0.3 * freqDeviation c t + 0.3 * |t.coherence - c.coherence| := by
  rw [patternDistance_some, circDist_unique (isCircDist_phaseDifference h) hd]

/-- The distance is not negative. -/
theorem C06_distance_nonneg (c t : TargetPattern ℝ) : 0 ≤ patternDistance (some c) (some t) := by
  rw [patternDistance_some]
  have := (freqDeviation_bounds c t).1
  have := Real.pi_pos
  positivity

/-- With coherences between 0 and 1 the distance is at most 1. -/
theorem C06_distance_le_one (c t : TargetPattern ℝ) (hc : 0 ≤ c.coherence ∧ c.coherence ≤ 1)
    (ht : 0 ≤ t.coherence ∧ t.coherence ≤ 1) : patternDistance (some c) (some t) ≤ 1 := by
  rw [patternDistance_some]
  have h1 := (freqDeviation_bounds c t).2
  have h2 : |phaseDifference t.phase c.phase| / π ≤ 1 :=
    div_le_one_of_le₀ (abs_phaseDifference_le _ _) Real.pi_pos.le
  have h3 : |t.coherence - c.coherence| ≤ 1 := by rw [abs_le]; constructor <;> linarith [hc.1, hc.2, ht.1, ht.2]
  norm_num
  linarith

/-- The distance vanishes exactly when phase (as an angle), coherence and — if the target prescribes one — frequency
agree. In particular it is 0 from a pattern to itself. -/
theorem C06_distance_eq_zero_iff (c t : TargetPattern ℝ) :
    patternDistance (some c) (some t) = 0 ↔
      SameAngle t.phase c.phase ∧ c.coherence = t.coherence ∧ (0 < t.frequency → c.frequency = t.frequency) := by
  rw [patternDistance_some]
  have hf := (freqDeviation_bounds c t).1
  have hp : 0 ≤ |phaseDifference t.phase c.phase| / π := div_nonneg (abs_nonneg _) Real.pi_pos.le
  have ha := abs_nonneg (t.coherence - c.coherence)
  have hfz : freqDeviation c t = 0 ↔ (0 < t.frequency → c.frequency = t.frequency) := by
    unfold freqDeviation
    split_ifs with h
    · have h' : (0 : ℝ) < t.frequency := by exact_mod_cast h
      simp only [h, true_implies]
      constructor
      · intro hm
        have : |(c.frequency : ℝ) - t.frequency| / t.frequency ≤ 0 := by
          rcases min_choice (|(c.frequency : ℝ) - t.frequency| / t.frequency) 1 with h1 | h1
          · rw [h1] at hm; exact hm.le
          · rw [h1] at hm; norm_num at hm
        have h2 : |(c.frequency : ℝ) - t.frequency| ≤ 0 := by
          have := (div_le_iff₀ h').mp this; linarith
        have h3 := abs_nonpos_iff.mp h2
        exact_mod_cast sub_eq_zero.mp h3
      · intro he; rw [he]; simp
    · simp [h]
  constructor
  · intro h
    norm_num at h
    have e1 : |phaseDifference t.phase c.phase| / π = 0 := by linarith
    have e2 : freqDeviation c t = 0 := by linarith
    have e3 : |t.coherence - c.coherence| = 0 := by linarith
    refine ⟨?_, ?_, hfz.mp e2⟩
    · rw [← phaseDifference_eq_zero_iff, ← abs_eq_zero]
      rcases div_eq_zero_iff.mp e1 with h | h
      · exact h
      · exact absurd h Real.pi_ne_zero
    · linarith [abs_eq_zero.mp e3]
  · rintro ⟨h1, h2, h3⟩
    rw [(phaseDifference_eq_zero_iff _ _).mpr h1, hfz.mpr h3, h2]
    simp

/-- A pattern has distance 0 from itself. -/
theorem C06_distance_self (p : TargetPattern ℝ) : patternDistance (some p) (some p) = 0 :=
  (C06_distance_eq_zero_iff p p).mpr ⟨SameAngle.refl _, rfl, fun _ => rfl⟩

/-- A missing pattern is at the largest representable distance. -/
theorem C06_distance_nil (p : Option (TargetPattern ℝ)) :
    patternDistance none p = maxDouble ∧ patternDistance p none = maxDouble := by
  cases p <;> simp [patternDistance]

example : ∃ c t : TargetPattern ℝ, ¬ SpecialPair t.phase c.phase ∧ 0 < t.frequency ∧
    patternDistance (some c) (some t) ≠ 0 := by
  refine ⟨⟨0, 1, 0, 0, [], 0⟩, ⟨0, 1, 0, 1, [], 0⟩, ?_, by norm_num, ?_⟩
  · have := Real.pi_gt_three
    rintro (⟨-, h⟩ | ⟨h, -⟩) <;> simp only [zero_sub, abs_neg] at h <;> rw [abs_of_pos (by linarith)] at h <;>
      norm_num at h <;> linarith
  · rw [Ne, C06_distance_eq_zero_iff]; norm_num

/-! ## C07 Gap identification -/

theorem phaseOut_iff (c t : TargetPattern ℝ) : PhaseOut c t ↔ |phaseDifference t.phase c.phase| > 0.1 := by
  have hp := Real.pi_gt_three
  by_cases h : SpecialPair t.phase c.phase
  · have hval : |phaseDifference t.phase c.phase| = π / 2 := by
      rw [phaseDifference_eq]
      rcases h with h | h
      · rw [if_pos h, abs_neg, abs_of_pos (by linarith)]
      · split_ifs
        · rw [abs_neg, abs_of_pos (by linarith)]
        · rw [abs_of_pos (by linarith)]
    rw [hval]
    refine ⟨fun _ => by norm_num; linarith, fun _ k => ?_⟩
    by_contra hc
    push Not at hc
    have key : ∀ e : ℝ, |e| < 1 → ∀ k : ℤ, 3 * π / 2 + e = k * (2 * π) → False := by
      intro e he k hk
      rw [abs_lt] at he
      rcases le_or_gt k 0 with h | h
      · have : (k : ℝ) ≤ 0 := by exact_mod_cast h
        nlinarith
      · have : (1 : ℝ) ≤ k := by exact_mod_cast h
        nlinarith
    rw [abs_le] at hc
    rcases h with ⟨h1, h2⟩ | ⟨h1, h2⟩ <;> rw [abs_lt] at h1 h2 <;> norm_num at h1 h2 hc
    · exact key (k * (2 * π) - 3 * π / 2) (by rw [abs_lt]; constructor <;> linarith) k (by ring)
    · exact key (-(k * (2 * π)) - 3 * π / 2) (by rw [abs_lt]; constructor <;> linarith) (-k) (by push_cast; ring)
  · have hd := isCircDist_phaseDifference h
    obtain ⟨⟨k0, hk0⟩, hm⟩ := hd
    constructor
    · intro ho; rw [hk0]; exact ho k0
    · intro hgt k; exact lt_of_lt_of_le hgt (hm k)

theorem freqOut_iff (c t : TargetPattern ℝ) :
    FreqOut c t ↔ (t.frequency > 0 ∧ c.frequency > 0 ∧ |(c.frequency : ℝ) / t.frequency - 1| > 0.05) := by
  unfold FreqOut
  refine and_congr_right fun h => and_congr_right fun _ => ?_
  have h' : (0 : ℝ) < t.frequency := by exact_mod_cast h
  have e : |(c.frequency : ℝ) / t.frequency - 1| = |(c.frequency : ℝ) - t.frequency| / t.frequency := by
    rw [← abs_of_pos h', ← abs_div, abs_of_pos h']; congr 1; field_simp
  rw [e, gt_iff_lt, lt_div_iff₀ h']
  norm_num
  constructor <;> intro h <;> linarith

open Classical in
/-- Exactly the out-of-tolerance components are reported, once each, in the order phase, frequency, coherence. -/
theorem C07_gap_types (c t : TargetPattern ℝ) :
    (identifyGaps' c t).map (·.type) =
      (if PhaseOut c t then [GapType.phase] else []) ++ (if FreqOut c t then [GapType.frequency] else []) ++
      (if CohOut c t then [GapType.coherence] else []) := by
  have h3 : CohOut c t ↔ c.coherence < t.coherence - 0.05 := by
    unfold CohOut; constructor <;> intro h <;> linarith
  simp only [phaseOut_iff, freqOut_iff, h3]
  unfold identifyGaps'
  simp only [GoMath.abs_real, GoMath.ofInt_real]
  split_ifs <;> simp

/-- Contents of the reported gaps: values are those of the two patterns, severities are positive; the phase severity is
a fraction of a half turn, the frequency severity the relative deviation, the coherence severity the shortfall. -/
theorem C07_gap_fields (c t : TargetPattern ℝ) (g : PatternGap ℝ) (hg : g ∈ identifyGaps' c t) :
    0 < g.severity ∧
    match g.type with
    | .phase => g.current = c.phase ∧ g.target = t.phase ∧ g.severity ≤ 1 ∧
        (¬ SpecialPair t.phase c.phase → IsCircDist t.phase c.phase (g.severity * π))
    | .frequency => g.current = c.frequency ∧ g.target = t.frequency ∧
        g.severity * t.frequency = |(c.frequency : ℝ) - t.frequency|
    | .coherence => g.current = c.coherence ∧ g.target = t.coherence ∧ g.severity = t.coherence - c.coherence
    | .waveform => False := by
  have hp := Real.pi_pos
  unfold identifyGaps' at hg
  simp only [GoMath.abs_real, GoMath.ofInt_real, GoMath.piMul_real, Rat.cast_one, one_mul, List.mem_append] at hg
  rcases hg with (hg | hg) | hg
  · split_ifs at hg with h
    · simp only [List.mem_singleton] at hg
      subst hg
      norm_num at h
      refine ⟨div_pos (by linarith) hp, rfl, rfl, div_le_one_of_le₀ (abs_phaseDifference_le _ _) hp.le, ?_⟩
      intro hs
      simp only
      rw [div_mul_cancel₀ _ hp.ne']
      exact isCircDist_phaseDifference hs
    · simp at hg
  · split_ifs at hg with h
    · simp only [List.mem_singleton] at hg
      subst hg
      obtain ⟨h1, h2, h3⟩ := h
      norm_num at h3
      have h' : (0 : ℝ) < t.frequency := by exact_mod_cast h1
      refine ⟨by simp only; linarith, rfl, rfl, ?_⟩
      simp only
      nth_rewrite 2 [← abs_of_pos h']
      rw [← abs_mul]; congr 1; field_simp
    · simp at hg
  · split_ifs at hg with h
    · simp only [List.mem_singleton] at hg
      subst hg
      norm_num at h
      exact ⟨by simp only; linarith, rfl, rfl, rfl⟩
    · simp at hg

/-- A pattern has no gap to itself. -/
theorem C07_no_gap_self (p : TargetPattern ℝ) : identifyGaps' p p = [] := by
  have h := C07_gap_types p p
  have h1 : ¬ PhaseOut p p := fun h => by have := h 0; norm_num at this
  have h2 : ¬ FreqOut p p := by
    rintro ⟨h1, -, h⟩
    have h' : (0 : ℝ) < p.frequency := by exact_mod_cast h1
    simp only [sub_self, abs_zero, mul_zero] at h; linarith
  have h3 : ¬ CohOut p p := by unfold CohOut; norm_num
  rw [if_neg h1, if_neg h2, if_neg h3] at h
  simpa using h

/-- Unlike the distance, gap identification does not guard against missing patterns: it panics. -/
theorem C07_nil_panics (p : Option (TargetPattern ℝ)) :
    identifyGaps none p = .panic ∧ identifyGaps p none = .panic ∧
    ∀ c t : TargetPattern ℝ, identifyGaps (some c) (some t) = .ok (identifyGaps' c t) := by
  cases p <;> simp [identifyGaps]

example : ∃ c t : TargetPattern ℝ, PhaseOut c t ∧ FreqOut c t ∧ CohOut c t := by
  refine ⟨⟨0, 1, 0, 0, [], 0⟩, ⟨1, 2, 0, 1, [], 0⟩, ?_, by unfold FreqOut; norm_num, by unfold CohOut; norm_num⟩
  intro k
  have hp := Real.pi_gt_three
  have hp' := Real.pi_lt_d2
  norm_num
  rcases le_or_gt k (-1) with h | h
  · have : (k : ℝ) ≤ -1 := by exact_mod_cast h
    rw [abs_of_neg (by nlinarith)]; nlinarith
  · have : (0 : ℝ) ≤ k := by exact_mod_cast (by omega : 0 ≤ k)
    rw [abs_of_pos (by nlinarith)]; nlinarith

end Verif
