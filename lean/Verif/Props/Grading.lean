import Verif.Model.Grading
import Verif.Num.Real
import Verif.Props.PresetDouble
import Mathlib.Tactic.Linarith

/-!
# C74: grading is monotone and consistent
-/

set_option autoImplicit false
set_option linter.unusedSectionVars false

namespace Verif
open GoMath Rounding

/-- The five levels, from worst to best. -/
def Spec.levels : List String := ["Very Low", "Low", "Moderate", "Good", "Excellent"]
/-- The descriptions for the mode `sync`, from worst to best, without and with pictures. -/
def Spec.syncTexts : Bool → List String
  | false => ["(Chaos - no coordination)", "(Groups forming - multiple rhythms)", "(Partial coordination - groups merging)",
      "(Good sync - single dominant rhythm)", "(Excellent sync - unified rhythm)"]
  | true => ["(🌪️  Chaos - no coordination)", "(🌊 Groups forming - multiple rhythms)", "(⚡ Partial coordination - groups merging)",
      "(🎵 Good sync - single dominant rhythm)", "(✨ Excellent sync - unified rhythm)"]
/-- The descriptions for the mode `batch`. -/
def Spec.batchTexts : Bool → List String
  | false => ["(Chaos - no batching)", "(Weak batching emerging)", "(Moderate batching)", "(Good batching)", "(Excellent batching!)"]
  | true => ["(🌪️  Chaos - no batching)", "(🌊 Weak batching emerging)", "(⚡ Moderate batching)", "(📦 Good batching)", "(🚀 Excellent batching!)"]
/-- The texts for a mode; anything but `batch` means `sync`. -/
def Spec.texts (mode : String) (emoji : Bool) : List String := if mode = "batch" then Spec.batchTexts emoji else Spec.syncTexts emoji
/-- The speeds of convergence, from fastest to slowest. -/
def Spec.speeds : List String := ["Fast convergence", "Normal convergence", "Slow convergence", "Very slow convergence"]
/-- How good a diagnosis is. -/
def Spec.goodness : Diagnosis → ℕ
  | .success => 2
  | .close => 1
  | _ => 0

open Spec

section
variable {α : Type} [Zero α] [One α] [Add α] [Sub α] [Mul α] [Div α] [Neg α] [LT α] [LE α]
  [DecidableLT α] [DecidableLE α] [BEq α] [OfScientific α] [GoMath α]

/-- The number of thresholds passed before the first that exceeds the value. -/
def passed (c : α) : List α → ℕ
  | [] => 0
  | t :: ts => if c < t then 0 else passed c ts + 1

theorem passed_le (c : α) (ts : List α) : passed c ts ≤ ts.length := by
  induction ts with
  | nil => simp [passed]
  | cons t ts ih => simp only [passed]; split_ifs <;> simp; exact ih

theorem passed_mono {a b : α} (ts : List α) (h : ∀ t ∈ ts, b < t → a < t) : passed a ts ≤ passed b ts := by
  induction ts with
  | nil => simp [passed]
  | cons t ts ih =>
    have := ih (fun t ht => h t (List.mem_cons_of_mem _ ht))
    simp only [passed]
    by_cases hb : b < t
    · rw [if_pos (h t List.mem_cons_self hb), if_pos hb]
    · rw [if_neg hb]; split_ifs <;> omega

theorem level_eq (c : α) : levels[passed c [0.2, 0.4, 0.6, 0.8]]? = some (interpretCoherenceLevel c) := by
  unfold interpretCoherenceLevel
  simp only [passed]
  split_ifs <;> rfl

theorem speed_eq (i m : ℤ) : speeds[passed (GoMath.ofInt i / GoMath.ofInt m : α) [0.3, 0.6, 0.9]]? = some (analyzeConvergenceRate α i m) := by
  unfold analyzeConvergenceRate
  simp only [passed]
  split_ifs <;> rfl

/-- **C74, consistency.** The level and the descriptions in either mode, with and without pictures, always have the same rank. -/
theorem C74_consistent (c : α) (mode : String) (emoji : Bool) :
    ∃ i, i < 5 ∧ levels[i]? = some (interpretCoherenceLevel c) ∧ (texts mode emoji)[i]? = some (describeSyncQuality c mode emoji) := by
  refine ⟨passed c [0.2, 0.4, 0.6, 0.8], by have := passed_le c [0.2, 0.4, 0.6, 0.8]; simp at this; omega, level_eq c, ?_⟩
  have hs : (syncTexts emoji)[passed c [0.2, 0.4, 0.6, 0.8]]? = some (describeSyncMode c emoji) := by
    unfold describeSyncMode syncTexts
    simp only [passed]
    cases emoji <;> split_ifs <;> first | rfl | contradiction
  have hb : (batchTexts emoji)[passed c [0.2, 0.4, 0.6, 0.8]]? = some (describeBatchMode c emoji) := by
    unfold describeBatchMode batchTexts
    simp only [passed]
    cases emoji <;> split_ifs <;> first | rfl | contradiction
  unfold texts describeSyncQuality
  by_cases h1 : mode = "batch"
  · rw [if_pos h1, if_neg (by rw [h1]; decide), if_pos h1]; exact hb
  · rw [if_neg h1, if_neg h1]; split_ifs <;> exact hs

/-- **C74, success.** Success is reported exactly if the final coherence reaches the target, and suggestions are made exactly if it does not. -/
theorem C74_success (s : RunStats α) (target : α) (mode : String) :
    ((diagnose s target mode).1 = .success ↔ target ≤ s.final) ∧ ((diagnose s target mode).2 = [] ↔ target ≤ s.final) := by
  unfold diagnose
  by_cases h : s.final ≥ target
  · rw [if_pos h]; exact ⟨⟨fun _ => h, fun _ => rfl⟩, ⟨fun _ => h, fun _ => rfl⟩⟩
  · rw [if_neg h]
    dsimp only
    split_ifs <;> exact ⟨⟨fun e => by simp at e, fun e => absurd e h⟩, ⟨fun e => by simp at e, fun e => absurd e h⟩⟩

end

theorem idxOf_levels {i : ℕ} {s : String} (h : levels[i]? = some s) : levels.idxOf s = i := by
  have hi : i < 5 := by have := (List.getElem?_eq_some_iff.1 h).1; simpa [levels] using this
  interval_cases i <;> simp [levels] at h <;> subst h <;> rfl

theorem idxOf_speeds {i : ℕ} {s : String} (h : speeds[i]? = some s) : speeds.idxOf s = i := by
  have hi : i < 4 := by have := (List.getElem?_eq_some_iff.1 h).1; simpa [speeds] using this
  interval_cases i <;> simp [speeds] at h <;> subst h <;> rfl

/-- Against bounds in order, the number passed before the first that exceeds the value is the number reached. -/
theorem passed_real (c : ℝ) : ∀ ts : List ℝ, ts.Pairwise (· ≤ ·) → passed c ts = (ts.filter fun t => t ≤ c).length := by
  intro ts
  induction ts with
  | nil => intro _; rfl
  | cons t ts ih =>
    intro hp
    obtain ⟨h1, h2⟩ := List.pairwise_cons.1 hp
    simp only [passed]
    by_cases h : c < t
    · rw [if_pos h]
      symm
      rw [List.length_eq_zero_iff, List.filter_eq_nil_iff]
      intro u hu
      have : t ≤ u := by
        rcases List.mem_cons.1 hu with rfl | hu
        · exact le_rfl
        · exact h1 u hu
      simp; linarith
    · rw [if_neg h, List.filter_cons_of_pos (by simpa using not_lt.1 h), List.length_cons, ih h2]

/-- **C74, levels.** The rank of the level is the number of the bounds 0.2, 0.4, 0.6 and 0.8 that the coherence reaches; so a greater coherence
never has a worse level. -/
theorem C74_levels (c d : ℝ) :
    levels.idxOf (interpretCoherenceLevel c) = ([0.2, 0.4, 0.6, 0.8].filter fun t : ℝ => t ≤ c).length ∧
    (c ≤ d → levels.idxOf (interpretCoherenceLevel c) ≤ levels.idxOf (interpretCoherenceLevel d)) := by
  rw [idxOf_levels (level_eq c), idxOf_levels (level_eq d)]
  refine ⟨?_, fun h => passed_mono _ fun t _ ht => lt_of_le_of_lt h ht⟩
  refine passed_real c _ ?_
  simp only [List.pairwise_cons, List.mem_cons, List.not_mem_nil, or_false, forall_eq_or_imp, forall_eq, IsEmpty.forall_iff, implies_true,
    List.Pairwise.nil, and_true]
  norm_num

/-- **C74, speed.** The rank of the speed is the number of the bounds 0.3, 0.6 and 0.9 that the share of the iterations used reaches. -/
theorem C74_speed_bounds (i m : ℤ) :
    speeds.idxOf (analyzeConvergenceRate ℝ i m) = ([0.3, 0.6, 0.9].filter fun t : ℝ => t ≤ (i : ℝ) / m).length := by
  rw [idxOf_speeds (speed_eq i m)]
  refine passed_real _ _ ?_
  simp only [List.pairwise_cons, List.mem_cons, List.not_mem_nil, or_false, forall_eq_or_imp, forall_eq, IsEmpty.forall_iff, implies_true,
    List.Pairwise.nil, and_true]
  norm_num

/-- 70 of 100 iterations are slow. -/
example : analyzeConvergenceRate ℝ 70 100 = "Slow convergence" := by
  norm_num [analyzeConvergenceRate, GoMath.ofInt_real]

/-- Every level occurs. -/
example : interpretCoherenceLevel (0.1 : ℝ) = "Very Low" ∧ interpretCoherenceLevel (0.3 : ℝ) = "Low" ∧
    interpretCoherenceLevel (0.5 : ℝ) = "Moderate" ∧ interpretCoherenceLevel (0.7 : ℝ) = "Good" ∧ interpretCoherenceLevel (0.8 : ℝ) = "Excellent" := by
  refine ⟨?_, ?_, ?_, ?_, ?_⟩ <;> norm_num [interpretCoherenceLevel]

/-- **C74, diagnoses.** With everything else equal, a greater final coherence never has a worse diagnosis. -/
theorem C74_diagnose (s t : RunStats ℝ) (target : ℝ) (mode : String) (hi : s.initial = t.initial) (hm : s.maxIter = t.maxIter)
    (hs : s.stuckCount = t.stuckCount) (h : s.final ≤ t.final) :
    goodness (diagnose s target mode).1 ≤ goodness (diagnose t target mode).1 := by
  unfold diagnose
  dsimp only
  simp only [ge_iff_le, GoMath.abs_real]
  rw [hi, hm, hs]
  by_cases h1 : target ≤ t.final
  · rw [if_pos h1]
    split_ifs <;> simp [goodness]
  · have h1' : ¬ target ≤ s.final := fun h' => h1 (h'.trans h)
    rw [if_neg h1, if_neg h1']
    push Not at h1 h1'
    split_ifs with h2 h3 h4 h5 h6 h7 <;> simp only [goodness, le_refl, zero_le]
    all_goals
      exfalso
      simp only [abs_of_pos (show 0 < target - s.final by linarith), abs_of_pos (show 0 < target - t.final by linarith)] at *
      linarith

/-- Two runs that meet the hypotheses, with different diagnoses. -/
example : (diagnose (⟨0.1, 0.3, 100, 100, 0⟩ : RunStats ℝ) 0.8 "sync").1 = .failed ∧
    (diagnose (⟨0.1, 0.75, 100, 100, 0⟩ : RunStats ℝ) 0.8 "sync").1 = .close := by
  have : ¬ Int.tdiv 100 3 < 0 := by decide
  constructor <;> norm_num [diagnose, abs_of_pos, this]

/-! ### Doubles -/

section
variable [Rounding] [LibM]

theorem overflow_gt_one : (1 : ℝ) < overflow := by
  have := isDouble_one.abs_lt_overflow
  rwa [abs_one] at this

theorem overflow_pos : 0 < overflow := lt_trans one_pos overflow_gt_one

theorem F64.lt_of_le_lt {a b c : F64} (h : a ≤ b) (h' : b < c) : a < c := by
  cases a <;> cases b <;> cases c <;> first
    | exact (h : False).elim | exact (h' : False).elim | trivial
    | (rename_i x y z; exact lt_of_le_of_lt (α := ℝ) h h')

theorem F64.ofReal_mono {x y : ℝ} (h : x ≤ y) : F64.ofReal x ≤ F64.ofReal y := by
  unfold F64.ofReal
  have ho : 0 < overflow := overflow_pos
  split_ifs with h1 h2 h3 h4 h5 h6 h7
  · exact rnd_mono h
  · trivial
  · exfalso
    rw [abs_lt] at h1
    rw [abs_lt, not_and_or] at h2
    rcases h2 with h2 | h2 <;> linarith
  · exfalso
    rw [abs_lt] at h5
    rw [abs_lt, not_and_or] at h1
    rcases h1 with h1 | h1 <;> linarith
  all_goals first | trivial | (exfalso; linarith)

/-- **C74, levels in doubles.** A greater coherence never has a worse level; neither is NaN here. -/
theorem C74_levels_double (c d : F64) (h : c ≤ d) : levels.idxOf (interpretCoherenceLevel c) ≤ levels.idxOf (interpretCoherenceLevel d) := by
  rw [idxOf_levels (level_eq c), idxOf_levels (level_eq d)]
  exact passed_mono _ fun t _ ht => F64.lt_of_le_lt h ht

/-- **C74, in full, for doubles.** Only a coherence of at least 0.8 is called excellent. -/
def C74_claim : Prop := ∀ c : F64, interpretCoherenceLevel c = "Excellent" → (0.8 : F64) ≤ c

/-- NaN is called excellent. -/
theorem C74_refuted : interpretCoherenceLevel (F64.nan) = "Excellent" ∧ ¬ C74_claim := by
  have h : interpretCoherenceLevel (F64.nan) = "Excellent" := by
    unfold interpretCoherenceLevel
    rw [if_neg (fun h : F64.nan < _ => h), if_neg (fun h : F64.nan < _ => h), if_neg (fun h : F64.nan < _ => h),
      if_neg (fun h : F64.nan < _ => h)]
  refine ⟨h, fun hc => ?_⟩
  have := hc _ h
  revert this
  show ¬ F64.le (F64.ofReal _) F64.nan
  intro hle
  generalize F64.ofReal (OfScientific.ofScientific 8 true 1 : ℝ) = y at hle
  cases y <;> exact hle

/-- **C74, partial, for doubles.** Of all doubles but NaN, exactly those of at least 0.8 (rounded) are called excellent. Missing: NaN (`C74_refuted`). -/
theorem C74_excellent_partial (c : F64) (hc : c ≠ .nan) : interpretCoherenceLevel c = "Excellent" ↔ (0.8 : F64) ≤ c := by
  have hnot : ∀ x : ℝ, |x| < overflow → (¬ c < F64.ofReal x ↔ F64.ofReal x ≤ c) := by
    intro x hx
    have : F64.ofReal x = .fin ⟨rnd x, isDouble x⟩ := by unfold F64.ofReal; rw [if_pos hx]
    rw [this]
    cases c with
    | nan => exact absurd rfl hc
    | pinf => exact ⟨fun _ => trivial, fun _ h => h⟩
    | ninf => exact ⟨fun h => h trivial, fun h => h.elim⟩
    | fin d => exact ⟨fun h => le_of_not_gt (α := ℝ) h, fun h => not_lt_of_ge (α := ℝ) h⟩
  have h8 : |(0.8 : ℝ)| < overflow := by
    rw [abs_of_pos (by norm_num)]; exact lt_trans (by norm_num) overflow_gt_one
  have mono : ∀ x : ℝ, x ≤ 0.8 → (0.8 : F64) ≤ c → ¬ c < F64.ofReal x := by
    intro x hx h hlt
    have h1 : F64.ofReal x ≤ (0.8 : F64) := F64.ofReal_mono hx
    have h2 : (0.8 : F64) < F64.ofReal x := F64.lt_of_le_lt h hlt
    have h3 := F64.lt_of_le_lt h1 h2
    revert h3
    rcases F64.ofReal x with _ | _ | _ | d <;> intro h3
    · exact h3
    · exact h3
    · exact h3
    · exact lt_irrefl d.1 h3
  constructor
  · intro h
    unfold interpretCoherenceLevel at h
    split_ifs at h with h1 h2 h3 h4
    · simp at h
    · simp at h
    · simp at h
    · simp at h
    · exact (hnot 0.8 h8).1 h4
  · intro h
    unfold interpretCoherenceLevel
    rw [if_neg (show ¬ c < (0.2 : F64) from mono 0.2 (by norm_num) h), if_neg (show ¬ c < (0.4 : F64) from mono 0.4 (by norm_num) h),
      if_neg (show ¬ c < (0.6 : F64) from mono 0.6 (by norm_num) h), if_neg (show ¬ c < (0.8 : F64) from mono 0.8 le_rfl h)]

theorem isDouble_two63 : IsDouble ((2 : ℝ) ^ 63) := ⟨1, 63, by norm_num, by norm_num, by norm_num, by norm_num⟩

/-- A non-negative `int64` as a double. -/
theorem ofInt_fin {n : ℤ} (hn : 0 ≤ n) (h63 : n < 2 ^ 63) : (GoMath.ofInt n : F64) = .fin ⟨rnd (n : ℝ), isDouble _⟩ := by
  show F64.ofReal (n : ℝ) = _
  unfold F64.ofReal
  rw [if_pos]
  have hr : (0 : ℝ) ≤ (n : ℝ) := by exact_mod_cast hn
  have hu : (n : ℝ) ≤ 2 ^ 63 := by exact_mod_cast h63.le
  have := isDouble_two63.abs_lt_overflow
  rw [abs_of_pos (by positivity)] at this
  rw [abs_of_nonneg hr]
  exact lt_of_le_of_lt hu this

/-- **C74, speed, in doubles.** For non-negative iterations and a positive limit, more iterations never mean a faster convergence and a greater
limit never means a slower one; with a limit of 0 the convergence is always called very slow. -/
theorem C74_speed (i j m k : ℤ) (hi : 0 ≤ i) (hij : i ≤ j) (hj : j < 2 ^ 63) (hm : 0 < m) (hmk : m ≤ k) (hk : k < 2 ^ 63) :
    speeds.idxOf (analyzeConvergenceRate F64 i m) ≤ speeds.idxOf (analyzeConvergenceRate F64 j m) ∧
    speeds.idxOf (analyzeConvergenceRate F64 i k) ≤ speeds.idxOf (analyzeConvergenceRate F64 i m) ∧
    analyzeConvergenceRate F64 i 0 = "Very slow convergence" := by
  have r0 : ∀ n : ℤ, 0 ≤ n → 0 ≤ rnd (n : ℝ) := fun n hn => le_rnd isDouble_zero (by exact_mod_cast hn)
  have r1 : ∀ n : ℤ, 0 < n → 0 < rnd (n : ℝ) := fun n hn =>
    lt_of_lt_of_le one_pos (le_rnd isDouble_one (by exact_mod_cast hn))
  have rm : ∀ a b : ℤ, a ≤ b → rnd (a : ℝ) ≤ rnd (b : ℝ) := fun a b h => rnd_mono (by exact_mod_cast h)
  refine ⟨?_, ?_, ?_⟩
  · rw [idxOf_speeds (speed_eq i m), idxOf_speeds (speed_eq j m)]
    refine passed_mono _ fun t _ ht => F64.lt_of_le_lt ?_ ht
    rw [ofInt_fin hi (by omega), ofInt_fin (hi.trans hij) hj, ofInt_fin hm.le (by omega), F64.div_fin (r1 m hm).ne', F64.div_fin (r1 m hm).ne']
    exact F64.ofReal_mono (div_le_div_of_nonneg_right (rm i j hij) (r1 m hm).le)
  · rw [idxOf_speeds (speed_eq i k), idxOf_speeds (speed_eq i m)]
    refine passed_mono _ fun t _ ht => F64.lt_of_le_lt ?_ ht
    have hk0 : 0 < k := lt_of_lt_of_le hm hmk
    rw [ofInt_fin hi (by omega), ofInt_fin hm.le (by omega), ofInt_fin hk0.le hk, F64.div_fin (r1 k hk0).ne', F64.div_fin (r1 m hm).ne']
    exact F64.ofReal_mono (div_le_div_of_nonneg_left (r0 i hi) (r1 m hm) (rm m k hmk))
  · have h0 : (GoMath.ofInt 0 : F64) = .fin ⟨0, isDouble_zero⟩ := by
      rw [ofInt_fin le_rfl (by norm_num)]
      congr 2
      rw [Int.cast_zero]; exact rnd_eq_self isDouble_zero
    have hdiv : (GoMath.ofInt i / GoMath.ofInt 0 : F64) = .pinf ∨ (GoMath.ofInt i / GoMath.ofInt 0 : F64) = .nan := by
      rw [h0, ofInt_fin hi (by omega)]
      show (if (0 : ℝ) = 0 then F64.infSign (rnd (i : ℝ)) else _) = _ ∨ (if (0 : ℝ) = 0 then F64.infSign (rnd (i : ℝ)) else _) = _
      rw [if_pos rfl]
      unfold F64.infSign
      rw [if_neg (not_lt.2 (r0 i hi))]
      split_ifs
      · exact .inl rfl
      · exact .inr rfl
    have hnl : ∀ (x : F64) (y : ℝ), x = .pinf ∨ x = .nan → ¬ x < F64.ofReal y := by
      rintro x y (rfl | rfl) h
      · generalize F64.ofReal y = z at h; cases z <;> exact h
      · exact h
    unfold analyzeConvergenceRate
    dsimp only
    rw [if_neg (show ¬ _ < (0.3 : F64) from hnl _ _ hdiv), if_neg (show ¬ _ < (0.6 : F64) from hnl _ _ hdiv),
      if_neg (show ¬ _ < (0.9 : F64) from hnl _ _ hdiv)]

end

end Verif
