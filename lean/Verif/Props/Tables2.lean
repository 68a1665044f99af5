import Verif.Props.Gauges
import Mathlib.RingTheory.RootsOfUnity.Complex
import Mathlib.Analysis.SpecialFunctions.Trigonometric.Bounds

/-!
# C113, C114, C116: sine waves, recommendations by size, bars of the batching panel
-/

set_option autoImplicit false
set_option linter.unusedSectionVars false

namespace Verif
open GoMath Spec

local notation "π" => Real.pi

/-! ### C113 -/

theorem sum_sin_turn (n : ℕ) : ((List.range n).map fun i : ℕ => Real.sin (2 * π * i / n)).sum = 0 := by
  rcases Nat.lt_or_ge n 2 with h | h
  · interval_cases n <;> simp
  have hz := (Complex.isPrimitiveRoot_exp n (by omega)).geom_sum_eq_zero (by omega)
  have e : ∀ (m : ℕ), ((List.range m).map fun i : ℕ => Real.sin (2 * π * i / n)).sum = (∑ i ∈ Finset.range m, Complex.exp (2 * π * Complex.I / n) ^ i).im := by
    intro m
    induction m with
    | zero => simp
    | succ m ih =>
      rw [List.range_succ, List.map_append, List.sum_append, ih, Finset.sum_range_succ, Complex.add_im]
      congr 1
      rw [← Complex.exp_nat_mul, show (m : ℂ) * (2 * π * Complex.I / n) = ((2 * π * m / n : ℝ) : ℂ) * Complex.I by push_cast; ring, Complex.exp_ofReal_mul_I_im]
      simp
  rw [e, hz, Complex.zero_im]

/-- **C113** `GenerateSineWave` samples one full turn of the sine: the right number of points, between -1 and 1, starting at 0, summing to 0; a negative
number of points panics. -/
theorem C113_wave (points : ℤ) :
    (points < 0 → generateSineWave points = (.panic : Outcome (List ℝ))) ∧
    (0 ≤ points → ∃ l : List ℝ, generateSineWave points = .ok l ∧ (l.length : ℤ) = points ∧ l.sum = 0 ∧ (∀ x ∈ l, -1 ≤ x ∧ x ≤ 1) ∧
      (∀ i (h : i < l.length), l[i] = Real.sin (2 * π * (i / points)))) := by
  constructor
  · intro h
    unfold generateSineWave
    rw [if_pos h]
  · intro h
    obtain ⟨n, rfl⟩ := Int.eq_ofNat_of_zero_le h
    have hval : ∀ i : ℕ, GoMath.sin (ofInt (i : Int) * 2.0 * piMul 1 / ofInt ((n : ℕ) : ℤ) : ℝ) = Real.sin (2 * π * i / n) := by
      intro i
      simp only [GoMath.sin_real, GoMath.ofInt_real, GoMath.piMul_real]
      congr 1
      push_cast
      norm_num
      ring
    refine ⟨(List.range n).map fun i : ℕ => Real.sin (2 * π * i / n), ?_, by simp, sum_sin_turn n, ?_, ?_⟩
    · unfold generateSineWave
      rw [if_neg (by omega), Int.toNat_natCast]
      simp only [hval]
    · intro x hx
      obtain ⟨i, -, rfl⟩ := List.mem_map.1 hx
      exact ⟨Real.neg_one_le_sin _, Real.sin_le_one _⟩
    · intro i hi
      simp only [List.getElem_map, List.getElem_range]
      congr 1
      push_cast
      ring

/-- **C113** The waveform of the default templates is this wave with 100 points. -/
theorem C113_templates : generateSineWave 100 = (.ok sineWave100 : Outcome (List ℝ)) ∧
    ∀ t ∈ (Engine.new.loadDefaultTemplates : Engine ℝ).templates, t.2.waveform.length = 100 ∧ t.2.waveform.sum = 0 := by
  have h : generateSineWave 100 = (.ok sineWave100 : Outcome (List ℝ)) := rfl
  refine ⟨h, ?_⟩
  obtain ⟨l, hl, h1, h2, -⟩ := (C113_wave 100).2 (by norm_num)
  rw [h] at hl
  cases hl
  intro t ht
  have : t.2.waveform = sineWave100 := by
    have ht' : t ∈ [("perfect_sync", ({ phase := 0, frequency := 250000000, amplitude := 1, coherence := 1, waveform := sineWave100, stability := 1 } : TargetPattern ℝ)),
        ("partial_sync", { phase := 0, frequency := 250000000, amplitude := 0.8, coherence := 0.65, waveform := sineWave100, stability := 0.7 }),
        ("recovery", { phase := 0, frequency := 200000000, amplitude := 0.6, coherence := 0.5, waveform := sineWave100, stability := 0.5 })] := ht
    simp only [List.mem_cons, List.not_mem_nil, or_false] at ht'
    rcases ht' with rfl | rfl | rfl <;> rfl
  rw [this]
  exact ⟨by exact_mod_cast h1, h2⟩

/-- Four points: 0, 1, 0, -1. -/
example : ∃ l : List ℝ, generateSineWave 4 = .ok l ∧ l.length = 4 ∧ l.sum = 0 := by
  obtain ⟨l, h, h1, h2, -⟩ := (C113_wave 4).2 (by norm_num)
  exact ⟨l, h, by exact_mod_cast h1, h2⟩

/-! ### C114 -/

namespace Spec

/-- The sizes for which a goal is said to work well: least and greatest number of agents. -/
inductive WorksWell : GoalType → ℤ → Prop
  | batch (n : ℤ) : WorksWell 0 n
  | load (n : ℤ) : 20 ≤ n → WorksWell 1 n
  | consensus (n : ℤ) : 50 ≤ n → n ≤ 1000 → WorksWell 2 n
  | latency (n : ℤ) : n ≤ 200 → WorksWell 3 n
  | energy (n : ℤ) : n ≤ 200 → WorksWell 4 n
  | rhythm (n : ℤ) : WorksWell 5 n
  | recovery (n : ℤ) : 20 ≤ n → WorksWell 6 n
  | traffic (n : ℤ) : 20 ≤ n → n ≤ 1000 → WorksWell 7 n
  | other (g : GoalType) (n : ℤ) : g < 0 ∨ 7 < g → WorksWell g n

/-- Goals and scales with a name. -/
def KnownGoal (g : GoalType) : Prop := (0 : ℤ) ≤ g ∧ (g : ℤ) ≤ 7
def KnownScale (s : Size) : Prop := (0 : ℤ) ≤ s ∧ (s : ℤ) ≤ 4

end Spec

theorem known_scale_cases {s : Size} (h : KnownScale s) : s = 0 ∨ s = 1 ∨ s = 2 ∨ s = 3 ∨ s = 4 := by
  obtain ⟨a, b⟩ := h
  have : ∀ z : ℤ, 0 ≤ z → z ≤ 4 → z = 0 ∨ z = 1 ∨ z = 2 ∨ z = 3 ∨ z = 4 := by omega
  exact this s a b

theorem goal_cases (g : GoalType) : g = 0 ∨ g = 1 ∨ g = 2 ∨ g = 3 ∨ g = 4 ∨ g = 5 ∨ g = 6 ∨ g = 7 ∨ ((g : ℤ) < 0 ∨ 7 < (g : ℤ)) := by
  have : ∀ z : ℤ, z = 0 ∨ z = 1 ∨ z = 2 ∨ z = 3 ∨ z = 4 ∨ z = 5 ∨ z = 6 ∨ z = 7 ∨ (z < 0 ∨ 7 < z) := by omega
  exact this g

/-- **C114** A goal is recommended for exactly the sizes for which it is said to work well. -/
theorem C114_recommended (g : GoalType) (n : ℤ) : g.isRecommendedForSize n = true ↔ WorksWell g n := by
  rcases goal_cases g with rfl | rfl | rfl | rfl | rfl | rfl | rfl | rfl | h
  · exact ⟨fun _ => .batch n, fun _ => rfl⟩
  · constructor
    · intro h; exact .load n (by simpa [GoalType.isRecommendedForSize] using h)
    · rintro h; cases h with
      | load _ h => simpa [GoalType.isRecommendedForSize] using h
      | other _ _ h => rcases h with h | h <;> exact absurd h (by decide)
  · constructor
    · intro h
      have : 50 ≤ n ∧ n ≤ 1000 := by simpa [GoalType.isRecommendedForSize] using h
      exact .consensus n this.1 this.2
    · rintro h; cases h with
      | consensus _ h h' => simpa [GoalType.isRecommendedForSize] using ⟨h, h'⟩
      | other _ _ h => rcases h with h | h <;> exact absurd h (by decide)
  · constructor
    · intro h; exact .latency n (by simpa [GoalType.isRecommendedForSize] using h)
    · rintro h; cases h with
      | latency _ h => simpa [GoalType.isRecommendedForSize] using h
      | other _ _ h => rcases h with h | h <;> exact absurd h (by decide)
  · constructor
    · intro h; exact .energy n (by simpa [GoalType.isRecommendedForSize] using h)
    · rintro h; cases h with
      | energy _ h => simpa [GoalType.isRecommendedForSize] using h
      | other _ _ h => rcases h with h | h <;> exact absurd h (by decide)
  · exact ⟨fun _ => .rhythm n, fun _ => rfl⟩
  · constructor
    · intro h; exact .recovery n (by simpa [GoalType.isRecommendedForSize] using h)
    · rintro h; cases h with
      | recovery _ h => simpa [GoalType.isRecommendedForSize] using h
      | other _ _ h => rcases h with h | h <;> exact absurd h (by decide)
  · constructor
    · intro h
      have : 20 ≤ n ∧ n ≤ 1000 := by simpa [GoalType.isRecommendedForSize] using h
      exact .traffic n this.1 this.2
    · rintro h; cases h with
      | traffic _ h h' => simpa [GoalType.isRecommendedForSize] using ⟨h, h'⟩
      | other _ _ h => rcases h with h | h <;> exact absurd h (by decide)
  · refine ⟨fun _ => .other g n h, fun _ => ?_⟩
    unfold GoalType.isRecommendedForSize
    split <;> first | rfl | (exfalso; rcases h with h | h <;> revert h <;> decide)

/-- **C114** Sizes between recommended sizes are recommended, and a medium swarm is recommended for every goal. -/
theorem C114_between (g : GoalType) (a b c : ℤ) (ha : g.isRecommendedForSize a = true) (hc : g.isRecommendedForSize c = true) (hab : a ≤ b) (hbc : b ≤ c) :
    g.isRecommendedForSize b = true ∧ g.isRecommendedForSize (Size.defaultAgentCount 2) = true := by
  rw [C114_recommended] at *
  rw [C114_recommended]
  cases ha with
  | batch => exact ⟨.batch _, .batch _⟩
  | load _ h => exact ⟨.load _ (by omega), .load _ (by decide)⟩
  | consensus _ h h' =>
    cases hc with
    | consensus _ k k' => exact ⟨.consensus _ (by omega) (by omega), .consensus _ (by decide) (by decide)⟩
    | other _ _ h => rcases h with h | h <;> exact absurd h (by decide)
  | latency _ h =>
    cases hc with
    | latency _ k => exact ⟨.latency _ (by omega), .latency _ (by decide)⟩
    | other _ _ h => rcases h with h | h <;> exact absurd h (by decide)
  | energy _ h =>
    cases hc with
    | energy _ k => exact ⟨.energy _ (by omega), .energy _ (by decide)⟩
    | other _ _ h => rcases h with h | h <;> exact absurd h (by decide)
  | rhythm => exact ⟨.rhythm _, .rhythm _⟩
  | recovery _ h => exact ⟨.recovery _ (by omega), .recovery _ (by decide)⟩
  | traffic _ h h' =>
    cases hc with
    | traffic _ k k' => exact ⟨.traffic _ (by omega) (by omega), .traffic _ (by decide) (by decide)⟩
    | other _ _ h => rcases h with h | h <;> exact absurd h (by decide)
  | other _ _ h => exact ⟨.other _ _ h, .other _ _ h⟩

/-- **C114** For the named scales there are fewer recommended neighbours than agents, and the two tables of update intervals agree, larger swarms being
updated less often. For other values the tables differ. -/
theorem C114_scales (s : Size) :
    (KnownScale s → 0 < s.maxNeighbors ∧ s.maxNeighbors < s.defaultAgentCount ∧ s.updateInterval = s.defaultUpdateIntervalMs ∧
      (∀ s' : Size, KnownScale s' → (s : ℤ) < (s' : ℤ) → s.updateInterval < s'.updateInterval)) ∧
    (¬ KnownScale s → s.updateInterval = 250 ∧ s.defaultUpdateIntervalMs = 100) := by
  constructor
  · intro h
    rcases known_scale_cases h with rfl | rfl | rfl | rfl | rfl <;> refine ⟨by decide, by decide, rfl, ?_⟩ <;> intro s' h' <;>
      rcases known_scale_cases h' with rfl | rfl | rfl | rfl | rfl <;> decide
  · intro h
    have hne : ∀ z : ℤ, ¬ (0 ≤ z ∧ z ≤ 4) → z ≠ 0 ∧ z ≠ 1 ∧ z ≠ 2 ∧ z ≠ 3 ∧ z ≠ 4 := by omega
    obtain ⟨h0, h1, h2, h3, h4⟩ := hne s h
    constructor
    · unfold Size.updateInterval
      split <;> first | rfl | contradiction
    · unfold Size.defaultUpdateIntervalMs
      split <;> first | rfl | contradiction

/-- "Tiny: fully connected" (emerge/scale/scale.go:149): the recommended neighbours of a tiny swarm are all other agents. -/
def C114_claim : Prop := Size.maxNeighbors 0 = Size.defaultAgentCount 0 - 1

/-- **C114** False: 9 of 19. -/
theorem C114_refuted : ¬ C114_claim := by unfold C114_claim; decide

/-! ### C116 -/

/-- **C116** The bar of an agent in the batching panel has between 0 and 8 rows; the k-th row from below is filled exactly if the sine of the phase is at
least `k/4 - 1`. -/
theorem C116_height (phase : ℝ) : 0 ≤ waveHeight phase ∧ waveHeight phase ≤ 8 ∧ ∀ k : ℤ, k ≤ waveHeight phase ↔ (k : ℝ) / 4 - 1 ≤ Real.sin phase := by
  have h1 := Real.neg_one_le_sin phase
  have h2 := Real.sin_le_one phase
  have e : waveHeight phase = ⌊4 * (Real.sin phase + 1)⌋ := by
    unfold waveHeight
    rw [GoMath.toInt_real, GoMath.sin_real, show (Real.sin phase + 1) / 2.0 * 8.0 = 4 * (Real.sin phase + 1) by norm_num; ring]
    exact rtrunc_floor _ (by linarith)
  rw [e]
  refine ⟨Int.floor_nonneg.2 (by linarith), ?_, ?_⟩
  · have : ⌊4 * (Real.sin phase + 1)⌋ ≤ ⌊(8 : ℝ)⌋ := Int.floor_le_floor (by linarith)
    simpa using this
  · intro k
    rw [Int.le_floor]
    constructor <;> intro h <;> linarith

/-- Agents with bars of the same height are less than a quarter turn apart, as a panel named "phase convergence" suggests. -/
def C116_claim : Prop := ∀ a b d : ℝ, waveHeight a = waveHeight b → IsCircDist a b d → d < π / 2

/-- **C116** False: opposite agents at the phases 0 and π have the same bar; so have in general `φ` and `π - φ`. -/
theorem C116_mirror (phase : ℝ) : waveHeight (π - phase) = waveHeight phase := by
  unfold waveHeight
  simp only [GoMath.sin_real, Real.sin_pi_sub]

/-- The phases 0 and π have the same bar. -/
theorem C116_refuted : ¬ C116_claim := by
  intro h
  have hp := Real.pi_pos
  have h1 := C116_mirror 0
  rw [sub_zero] at h1
  have h2 : IsCircDist π 0 |π| := isCircDist_of_le ⟨0, by simp⟩ (by rw [abs_of_pos hp])
  rw [abs_of_pos hp] at h2
  have := h π 0 π h1 h2
  linarith

end Verif
