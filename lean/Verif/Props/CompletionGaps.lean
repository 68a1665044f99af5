import Verif.Props.Completion

/-!
# C94: what a completed pattern says about frequency and coherence, and the table of templates
-/

set_option autoImplicit false
set_option linter.unusedSectionVars false

namespace Verif
open GoMath Spec

namespace Spec

/-- The current frequency is more than five per cent away from the target's. -/
def FrequencyGap (c t : TargetPattern ℝ) : Prop :=
  0 < c.frequency ∧ 0 < t.frequency ∧ 0.05 * (t.frequency : ℝ) < |(c.frequency : ℝ) - t.frequency|

/-- The coherence is more than 0.05 below the target's. -/
def CoherenceGap (c t : TargetPattern ℝ) : Prop := c.coherence + 0.05 < t.coherence

/-- The relative frequency error. -/
noncomputable def relError (c t : TargetPattern ℝ) : ℝ := |(c.frequency : ℝ) - t.frequency| / t.frequency

end Spec

theorem ratio_abs (a b : ℝ) (hb : 0 < b) : |a / b - 1| = |a - b| / b := by
  rw [← abs_of_pos hb, ← abs_div, abs_of_pos hb]
  congr 1
  field_simp

theorem freq_gap_iff (c t : TargetPattern ℝ) :
    (t.frequency > 0 ∧ c.frequency > 0 ∧ GoMath.abs ((ofInt c.frequency : ℝ) / ofInt t.frequency - 1) > 0.05) ↔ FrequencyGap c t := by
  simp only [GoMath.abs_real, GoMath.ofInt_real, FrequencyGap]
  constructor
  · rintro ⟨h1, h2, h3⟩
    have h1' : (0 : ℝ) < t.frequency := by exact_mod_cast h1
    rw [ratio_abs _ _ h1', gt_iff_lt, lt_div_iff₀ h1'] at h3
    exact ⟨h2, h1, h3⟩
  · rintro ⟨h1, h2, h3⟩
    have h2' : (0 : ℝ) < t.frequency := by exact_mod_cast h2
    rw [ratio_abs _ _ h2']
    exact ⟨h2, h1, (lt_div_iff₀ h2').2 h3⟩

theorem coh_gap_iff (c t : TargetPattern ℝ) : c.coherence < t.coherence - 0.05 ↔ CoherenceGap c t := by
  unfold CoherenceGap; constructor <;> intro h <;> linarith

open Classical in
/-- What interpolation fills in. -/
theorem interp_filled (c t : TargetPattern ℝ) :
    (interpolatePattern c (identifyGaps' c t)).filled.frequency =
      (if FrequencyGap c t then some (rtrunc (c.frequency + ((t.frequency : ℝ) - c.frequency) * min (relError c t) 0.5)) else none) ∧
    (interpolatePattern c (identifyGaps' c t)).filled.coherenceBoost =
      (if CoherenceGap c t then some ((t.coherence - c.coherence) * min (t.coherence - c.coherence) 0.5) else none) := by
  have hr : FrequencyGap c t → GoMath.abs ((c.frequency : ℝ) / t.frequency - 1) = relError c t := by
    intro h
    have : (0 : ℝ) < t.frequency := by exact_mod_cast h.2.1
    exact ratio_abs _ _ this
  unfold interpolatePattern identifyGaps'
  simp only [freq_gap_iff, coh_gap_iff]
  by_cases h1 : GoMath.abs (phaseDifference t.phase c.phase) > 0.1 <;> by_cases h2 : FrequencyGap c t <;> by_cases h3 : CoherenceGap c t <;>
    simp only [h1, h2, h3, hr, if_true, if_false, List.nil_append, List.append_nil, List.cons_append, List.foldl_cons, List.foldl_nil,
      interpolateStep, Filled.empty, GoMath.toInt_real, GoMath.ofInt_real, GoMath.fmin_real, and_self]

open Classical in
/-- What a template fills in. -/
theorem template_filled (c t tm : TargetPattern ℝ) (f : Filled ℝ) (h : templateFills c tm (identifyGaps' c t) Filled.empty = .ok f) :
    f.frequency =
      (if FrequencyGap c t then some (c.frequency + rtrunc (((tm.frequency - c.frequency : ℤ) : ℝ) * relError c t)) else none) ∧
    f.coherenceBoost = (if CoherenceGap c t then some (tm.coherence * (t.coherence - c.coherence)) else none) := by
  have hr : FrequencyGap c t → GoMath.abs ((c.frequency : ℝ) / t.frequency - 1) = relError c t := by
    intro h
    have : (0 : ℝ) < t.frequency := by exact_mod_cast h.2.1
    exact ratio_abs _ _ this
  unfold identifyGaps' at h
  simp only [freq_gap_iff, coh_gap_iff] at h
  by_cases h1 : GoMath.abs (phaseDifference t.phase c.phase) > 0.1 <;> by_cases h2 : FrequencyGap c t <;> by_cases h3 : CoherenceGap c t <;>
    simp only [h1, h2, h3, if_true, if_false, List.nil_append, List.append_nil, List.cons_append, templateFills, templateFill, Filled.empty] at h <;>
    injection h with h <;> subst h <;>
    simp only [h2, h3, hr, if_true, if_false, blendFrequency, GoMath.toInt_real, GoMath.ofInt_real, and_self]

theorem rtrunc_mem (x : ℝ) (m n : ℤ) (h1 : (m : ℝ) ≤ x) (h2 : x ≤ n) : m ≤ rtrunc x ∧ rtrunc x ≤ n := by
  unfold rtrunc
  split_ifs
  · exact ⟨Int.le_floor.2 h1, by exact_mod_cast (Int.floor_le x).trans h2⟩
  · exact ⟨by exact_mod_cast h1.trans (Int.le_ceil x), Int.ceil_le.2 h2⟩

theorem rtrunc_near (x : ℝ) : |(rtrunc x : ℝ) - x| < 1 := by
  unfold rtrunc
  split_ifs
  · rw [abs_lt]; constructor <;> linarith [Int.floor_le x, Int.lt_floor_add_one x]
  · rw [abs_lt]; constructor <;> linarith [Int.le_ceil x, Int.ceil_lt_add_one x]

/-- **C94** Without a template, a frequency is filled in exactly when there is a frequency gap; it lies between the current and the target frequency,
no further than halfway, up to the rounding to nanoseconds. A coherence boost is filled in exactly when there is a coherence gap; it is positive and at
most half of the gap. -/
theorem C94_interpolated (e : Engine ℝ) (order : List (String × TargetPattern ℝ) → List (String × TargetPattern ℝ)) (c t : TargetPattern ℝ)
    (hn : findBestTemplate e.matchThreshold ((order e.templates).map Prod.snd) c = none) (cp : CompletedPattern ℝ)
    (h : e.completePattern order c (identifyGaps' c t) = .ok cp) :
    (cp.filled.frequency = none ↔ ¬ FrequencyGap c t) ∧
    (∀ f, cp.filled.frequency = some f →
      min c.frequency t.frequency ≤ f ∧ f ≤ max c.frequency t.frequency ∧ 2 * |f - c.frequency| ≤ |t.frequency - c.frequency| + 1) ∧
    (cp.filled.coherenceBoost = none ↔ ¬ CoherenceGap c t) ∧
    (∀ b, cp.filled.coherenceBoost = some b → 0 < b ∧ b ≤ (t.coherence - c.coherence) / 2) := by
  unfold Engine.completePattern at h
  rw [hn] at h; injection h with h; subst h
  obtain ⟨e1, e2⟩ := interp_filled c t
  rw [e1, e2]
  refine ⟨by split_ifs <;> simp [*], ?_, by split_ifs <;> simp [*], ?_⟩
  · intro f hf
    split_ifs at hf with hg
    simp only [Option.some.injEq] at hf
    have hc : (0 : ℝ) < c.frequency := by exact_mod_cast hg.1
    have ht : (0 : ℝ) < t.frequency := by exact_mod_cast hg.2.1
    have w0 : 0 ≤ min (relError c t) 0.5 := le_min (by unfold relError; positivity) (by norm_num)
    have w1 : min (relError c t) 0.5 ≤ 1 / 2 := (min_le_right _ _).trans (by norm_num)
    generalize min (relError c t) 0.5 = w at *
    rcases le_total c.frequency t.frequency with hle | hle
    · have hle' : (c.frequency : ℝ) ≤ t.frequency := by exact_mod_cast hle
      have hb := rtrunc_mem (c.frequency + ((t.frequency : ℝ) - c.frequency) * w) c.frequency t.frequency
        (by nlinarith) (by nlinarith)
      rw [hf] at hb
      refine ⟨by omega, by omega, ?_⟩
      rw [abs_of_nonneg (by omega), abs_of_nonneg (by omega)]
      have hfl : (f : ℝ) ≤ c.frequency + ((t.frequency : ℝ) - c.frequency) * w := by
        rw [← hf]; unfold rtrunc; rw [if_pos (by nlinarith)]; exact Int.floor_le _
      have : (2 * (f - c.frequency) : ℝ) ≤ (t.frequency : ℝ) - c.frequency := by nlinarith
      have : 2 * (f - c.frequency) ≤ t.frequency - c.frequency := by exact_mod_cast this
      omega
    · have hle' : (t.frequency : ℝ) ≤ c.frequency := by exact_mod_cast hle
      have hb := rtrunc_mem (c.frequency + ((t.frequency : ℝ) - c.frequency) * w) t.frequency c.frequency
        (by nlinarith) (by nlinarith)
      rw [hf] at hb
      refine ⟨by omega, by omega, ?_⟩
      rw [abs_of_nonpos (by omega), abs_of_nonpos (by omega)]
      have hfl : c.frequency + ((t.frequency : ℝ) - c.frequency) * w < f + 1 := by
        rw [← hf]; unfold rtrunc; rw [if_pos (by nlinarith)]; exact Int.lt_floor_add_one _
      have : (2 * (c.frequency - f) : ℝ) < (c.frequency : ℝ) - t.frequency + 2 := by nlinarith
      have : 2 * (c.frequency - f) < c.frequency - t.frequency + 2 := by exact_mod_cast this
      omega
  · intro b hb
    split_ifs at hb with hg
    simp only [Option.some.injEq] at hb
    unfold CoherenceGap at hg
    have hpos : 0 < t.coherence - c.coherence := by linarith
    rw [← hb]
    have w0 : 0 < min (t.coherence - c.coherence) 0.5 := lt_min hpos (by norm_num)
    have w1 : min (t.coherence - c.coherence) 0.5 ≤ 1 / 2 := (min_le_right _ _).trans (by norm_num)
    exact ⟨by positivity, by nlinarith⟩

/-- **C94** With a template, the frequency moves from the current one towards the template's by the relative error, up to the rounding to nanoseconds,
and stays between the two while the relative error is at most 1 (beyond that it overshoots, `C66_frequency_overshoot`); the boost is the template's
coherence times the gap. -/
theorem C94_template (e : Engine ℝ) (order : List (String × TargetPattern ℝ) → List (String × TargetPattern ℝ)) (c t tm : TargetPattern ℝ)
    (hn : findBestTemplate e.matchThreshold ((order e.templates).map Prod.snd) c = some tm) (cp : CompletedPattern ℝ)
    (h : e.completePattern order c (identifyGaps' c t) = .ok cp) :
    (cp.filled.frequency = none ↔ ¬ FrequencyGap c t) ∧
    (∀ f, cp.filled.frequency = some f →
      |((f - c.frequency : ℤ) : ℝ) - (tm.frequency - c.frequency) * relError c t| < 1 ∧
      (relError c t ≤ 1 → min c.frequency tm.frequency ≤ f ∧ f ≤ max c.frequency tm.frequency)) ∧
    (cp.filled.coherenceBoost = none ↔ ¬ CoherenceGap c t) ∧
    (∀ b, cp.filled.coherenceBoost = some b → b = tm.coherence * (t.coherence - c.coherence)) := by
  unfold Engine.completePattern at h
  rw [hn] at h
  simp only at h
  cases hf : templateFills c tm (identifyGaps' c t) Filled.empty with
  | panic => rw [hf] at h; cases h
  | ok f =>
    rw [hf] at h; injection h with h; subst h
    obtain ⟨e1, e2⟩ := template_filled c t tm f hf
    simp only [e1, e2]
    refine ⟨by split_ifs <;> simp [*], ?_, by split_ifs <;> simp [*], ?_⟩
    · intro f hf
      split_ifs at hf with hg
      simp only [Option.some.injEq] at hf
      have ht : (0 : ℝ) < t.frequency := by exact_mod_cast hg.2.1
      have w0 : 0 ≤ relError c t := by unfold relError; positivity
      generalize relError c t = w at *
      have hd : f - c.frequency = rtrunc (((tm.frequency - c.frequency : ℤ) : ℝ) * w) := by omega
      constructor
      · rw [hd]
        have := rtrunc_near (((tm.frequency - c.frequency : ℤ) : ℝ) * w)
        push_cast at this ⊢
        exact this
      · intro w1
        rcases le_total c.frequency tm.frequency with hle | hle
        · have hle' : (0 : ℝ) ≤ ((tm.frequency - c.frequency : ℤ) : ℝ) := by exact_mod_cast sub_nonneg.2 hle
          have hb := rtrunc_mem (((tm.frequency - c.frequency : ℤ) : ℝ) * w) 0 (tm.frequency - c.frequency)
            (by push_cast at *; nlinarith) (by push_cast at *; nlinarith)
          omega
        · have hle' : ((tm.frequency - c.frequency : ℤ) : ℝ) ≤ 0 := by exact_mod_cast sub_nonpos.2 hle
          have hb := rtrunc_mem (((tm.frequency - c.frequency : ℤ) : ℝ) * w) (tm.frequency - c.frequency) 0
            (by push_cast at *; nlinarith) (by push_cast at *; nlinarith)
          omega
    · intro b hb
      split_ifs at hb with hg
      simp only [Option.some.injEq] at hb
      exact hb.symm

/-- **C94** The adjustment of the frequency leads from the base to the frequency filled in, and is zero if none is filled in. -/
theorem C94_adjustment {α : Type} [Zero α] [One α] [Add α] [Sub α] [Mul α] [Div α] [Neg α] [LT α] [LE α]
    [DecidableLT α] [DecidableLE α] [BEq α] [OfScientific α] [GoMath α] (e : Engine α)
    (order : List (String × TargetPattern α) → List (String × TargetPattern α)) (c : TargetPattern α) (gaps : List (PatternGap α))
    (cp : CompletedPattern α) (h : e.completePattern order c gaps = .ok cp) :
    c.frequency + cp.frequencyAdjustment = cp.filled.frequency.getD c.frequency := by
  obtain ⟨cp', h1, h2⟩ := completePattern_ok e order c gaps
  rw [h] at h1; injection h1 with h1; subst h1
  unfold CompletedPattern.frequencyAdjustment
  rw [h2]
  cases cp.filled.frequency <;> simp

/-- A current pattern with both gaps: 200 ms against 250 ms, coherence 0.3 against 0.9. -/
example : FrequencyGap ⟨0, 200000000, 1, 0.3, [], 0.5⟩ ⟨0, 250000000, 1, 0.9, [], 0.9⟩ ∧
    CoherenceGap ⟨0, 200000000, 1, 0.3, [], 0.5⟩ ⟨0, 250000000, 1, 0.9, [], 0.9⟩ ∧
    relError ⟨0, 200000000, 1, 0.3, [], 0.5⟩ ⟨0, 250000000, 1, 0.9, [], 0.9⟩ ≤ 1 := by
  refine ⟨⟨by norm_num, by norm_num, ?_⟩, ?_, ?_⟩
  · norm_num [abs_of_neg]
  · unfold CoherenceGap; norm_num
  · unfold relError; norm_num [abs_of_neg]

/-! ### The table of templates -/

section
variable {α : Type} [Zero α] [One α] [Add α] [Sub α] [Mul α] [Div α] [Neg α] [LT α] [LE α]
  [DecidableLT α] [DecidableLE α] [BEq α] [OfScientific α] [GoMath α]

theorem lookup_replace (l : List (String × TargetPattern α)) (name m : String) (p : TargetPattern α) (h : l.any (·.1 == name) = true) :
    (l.map fun q => if q.1 == name then (name, p) else q).lookup m = if m = name then some p else l.lookup m := by
  induction l with
  | nil => simp at h
  | cons q l ih =>
    obtain ⟨k, v⟩ := q
    by_cases hk : k = name
    · subst hk
      by_cases hm : m = k
      · subst hm; simp
      · have h1 : (m == k) = false := by simpa using hm
        simp only [List.map_cons, beq_self_eq_true, if_true, List.lookup, h1, if_neg hm]
        by_cases ha : l.any (·.1 == k) = true
        · rw [ih ha, if_neg hm]
        · have : (l.map fun q => if q.1 == k then (k, p) else q) = l := by
            conv_rhs => rw [← List.map_id l]
            apply List.map_congr_left
            intro q hq
            rw [if_neg]; rfl
            intro hc
            exact ha (List.any_eq_true.2 ⟨q, hq, hc⟩)
          rw [this]
    · have hk' : (k == name) = false := by simpa using hk
      have ha : l.any (·.1 == name) = true := by simpa [hk'] using h
      simp only [List.map_cons, hk', List.lookup]
      by_cases hm : m = k
      · subst hm; simp [hk]
      · have h1 : (m == k) = false := by simpa using hm
        simp only [Bool.false_eq_true, if_false, h1]
        exact ih ha

theorem lookup_append_none (l : List (String × TargetPattern α)) (name m : String) (p : TargetPattern α) (h : l.any (·.1 == name) = false) :
    (l ++ [(name, p)]).lookup m = if m = name then some p else l.lookup m := by
  induction l with
  | nil =>
    by_cases hm : m = name
    · subst hm; simp
    · have : (m == name) = false := by simpa using hm
      simp [List.lookup, this, hm]
  | cons q l ih =>
    obtain ⟨k, v⟩ := q
    simp only [List.any_cons, Bool.or_eq_false_iff] at h
    have hk : k ≠ name := by simpa using h.1
    simp only [List.cons_append, List.lookup]
    by_cases hm : m = k
    · subst hm; simp [hk]
    · have h1 : (m == k) = false := by simpa using hm
      simp only [h1]
      exact ih h.2

/-- **C94** `AddTemplate` stores the pattern under its name, replacing an earlier one, and leaves all other names and the threshold alone. -/
theorem C94_add (e : Engine α) (name : String) (p : TargetPattern α) :
    (∀ m, (e.addTemplate name p).templates.lookup m = if m = name then some p else e.templates.lookup m) ∧
    (e.addTemplate name p).matchThreshold = e.matchThreshold := by
  refine ⟨fun m => ?_, rfl⟩
  unfold Engine.addTemplate
  dsimp only
  split_ifs with h
  · rename_i hm; subst hm; rw [lookup_replace _ _ _ _ h, if_pos rfl]
  · rw [lookup_replace _ _ _ _ h, if_neg (by assumption)]
  · rename_i hm; subst hm; rw [lookup_append_none _ _ _ _ (eq_false_of_ne_true h), if_pos rfl]
  · rw [lookup_append_none _ _ _ _ (eq_false_of_ne_true h), if_neg (by assumption)]

theorem nodup_add (e : Engine α) (name : String) (p : TargetPattern α) (h : (e.templates.map Prod.fst).Nodup) :
    ((e.addTemplate name p).templates.map Prod.fst).Nodup := by
  unfold Engine.addTemplate
  dsimp only
  split_ifs with ha
  · have : (e.templates.map fun q => if q.1 == name then (name, p) else q).map Prod.fst = e.templates.map Prod.fst := by
      rw [List.map_map]
      apply List.map_congr_left
      intro q _
      simp only [Function.comp]
      split_ifs with hq
      · exact (by simpa using hq : q.1 = name).symm
      · rfl
    rw [this]; exact h
  · rw [List.map_append, List.nodup_append]
    refine ⟨h, by simp, ?_⟩
    intro a ha' b hb hab
    simp only [List.map_cons, List.map_nil, List.mem_singleton] at hb
    subst hb; subst hab
    obtain ⟨q, hq, hq'⟩ := List.mem_map.1 ha'
    exact ha (List.any_eq_true.2 ⟨q, hq, by simpa using hq'⟩)

/-- **C94** In an engine built with `AddTemplate` every name occurs once, and what it stands for is what was added last under that name. -/
theorem C94_latest (l : List (String × TargetPattern α)) :
    ((l.foldl (fun e q => e.addTemplate q.1 q.2) (Engine.new : Engine α)).templates.map Prod.fst).Nodup ∧
    ∀ m, (l.foldl (fun e q => e.addTemplate q.1 q.2) (Engine.new : Engine α)).templates.lookup m = l.reverse.lookup m := by
  induction l using List.reverseRecOn with
  | nil => exact ⟨List.nodup_nil, fun _ => rfl⟩
  | append_singleton l q ih =>
    rw [List.foldl_append]
    refine ⟨nodup_add _ _ _ ih.1, fun m => ?_⟩
    simp only [List.foldl_cons, List.foldl_nil]
    rw [(C94_add _ _ _).1, ih.2, List.reverse_append]
    obtain ⟨k, v⟩ := q
    simp only [List.reverse_cons, List.reverse_nil, List.nil_append, List.cons_append, List.lookup]
    by_cases hm : m = k
    · subst hm; simp
    · have : (m == k) = false := by simpa using hm
      simp [hm, this]

end

/-- Replacing a default template. -/
example (p : TargetPattern ℝ) : (defaultEngine.addTemplate "recovery" p).templates.lookup "recovery" = some p ∧
    (defaultEngine.addTemplate "recovery" p).templates.length = 3 := by
  refine ⟨by rw [(C94_add _ _ _).1, if_pos rfl], ?_⟩
  rfl

end Verif
