import Verif.Props.TablesDouble
import Verif.Props.Menu
import Verif.Props.TemplateLibrary
import Verif.Props.Completion

/-! # Grades (C78, C129), templates (C99) and waveforms (C65) in doubles -/

set_option autoImplicit false
set_option linter.unusedSectionVars false
set_option linter.unusedTactic false

namespace Verif
open GoMath Spec Rounding
section
variable [Rounding] [LibM]

/-- A threshold decides the same in doubles, if the exact number is not close to it or both are equal. -/
theorem threshold_same (t r : ℝ) (x : F64) (hx : App x r (1 / 10 ^ 12)) (h0 : 0 ≤ t) (h2 : t ≤ 2)
    (h : t + 1 / 200 ≤ r ∨ r + 1 / 200 ≤ t ∨ (x = F64.ofReal t ∧ r = t)) : F64.ofReal t ≤ x ↔ t ≤ r := by
  obtain ⟨a, ea, ha⟩ : App (F64.ofReal t) t (1 / 10 ^ 13) := App.ofReal (by rw [abs_of_nonneg h0]; linarith)
  obtain ⟨d, e, hd⟩ := hx
  rw [abs_le] at ha hd
  rcases h with h | h | ⟨h, h'⟩
  · refine iff_of_true ?_ (by linarith)
    rw [ea, e, F64.le_fin]
    have h1 := ha.2; have h2 := hd.1
    norm_num [-Subtype.coe_le_coe] at h1 h2
    linarith
  · refine iff_of_false ?_ (by linarith)
    rw [ea, e, F64.le_fin]
    have h1 := ha.1; have h2 := hd.2
    norm_num [-Subtype.coe_le_coe] at h1 h2
    exact not_le.2 (by linarith)
  · rw [h, h']
    exact iff_of_true (F64.ofReal_mono le_rfl) le_rfl

theorem table_tenths (g : ℤ) (p : PatternType) : ∃ k : ℕ, 6 ≤ k ∧ k ≤ 13 ∧ (modifierTable g p : ℝ) = k / 10 := by
  unfold modifierTable
  split <;> first
    | (refine ⟨13, by norm_num, by norm_num, ?_⟩; norm_num; done)
    | (refine ⟨12, by norm_num, by norm_num, ?_⟩; norm_num; done)
    | (refine ⟨11, by norm_num, by norm_num, ?_⟩; norm_num; done)
    | (refine ⟨10, by norm_num, by norm_num, ?_⟩; norm_num; done)
    | (refine ⟨9, by norm_num, by norm_num, ?_⟩; norm_num; done)
    | (refine ⟨8, by norm_num, by norm_num, ?_⟩; norm_num; done)
    | (refine ⟨7, by norm_num, by norm_num, ?_⟩; norm_num; done)
    | (refine ⟨6, by norm_num, by norm_num, ?_⟩; norm_num; done)

theorem one_mul_lit (x : ℝ) (h : |x| ≤ 2) : F64.ofReal 1 * F64.ofReal x = F64.ofReal x := by
  obtain ⟨a, ea, -⟩ : App (F64.ofReal x) x (1 / 10 ^ 13) := App.ofReal (by linarith)
  rw [F64.ofReal_of_isDouble isDouble_one, ea, F64.mul_fin]
  show F64.ofReal (1 * a.1) = _
  rw [one_mul, F64.ofReal_of_isDouble a.2]

theorem modifier_threshold (g n : ℤ) (p : PatternType) (j : ℕ) (hj : j = 13 ∨ j = 12 ∨ j = 10 ∨ j = 8) :
    F64.ofReal (j / 10) ≤ (getCoherenceModifier g n p : F64) ↔ (j : ℝ) / 10 ≤ getCoherenceModifier g n p := by
  have hj2 : (j : ℝ) / 10 ≤ 2 := by rcases hj with rfl | rfl | rfl | rfl <;> norm_num
  refine threshold_same _ _ _ (modifier_app g n p) (by positivity) hj2 ?_
  obtain ⟨k, k1, k2, hk⟩ := table_tenths g p
  have hf := modifierTable_ofReal g p
  rw [hk] at hf
  unfold getCoherenceModifier
  simp only [hf, hk]
  split_ifs with ha hb hc
  · exfalso; have := ha.2; have := hb.2; omega
  · by_cases h : k = 10 ∧ j = 8
    · obtain ⟨rfl, rfl⟩ := h
      refine .inr (.inr ⟨?_, by norm_num⟩)
      have := one_mul_lit 0.8 (by rw [abs_of_pos (by norm_num)]; norm_num)
      rw [show ((10 : ℕ) : ℝ) / 10 = 1 by norm_num, show ((8 : ℕ) : ℝ) / 10 = 0.8 by norm_num]
      exact this
    · rcases hj with rfl | rfl | rfl | rfl <;> interval_cases k <;> first
        | (exact absurd ⟨rfl, rfl⟩ h) | (left; norm_num; done) | (right; left; norm_num; done)
  · rcases hj with rfl | rfl | rfl | rfl <;> interval_cases k <;> first
      | (left; norm_num; done) | (right; left; norm_num; done)
  · by_cases h : k = j
    · subst h; exact .inr (.inr ⟨rfl, rfl⟩)
    · rcases hj with rfl | rfl | rfl | rfl <;> interval_cases k <;> first
        | (exact absurd rfl h) | (left; norm_num; done) | (right; left; norm_num; done)

/-- **C78 and C129 in doubles.** The grade of a pattern is the same in doubles as in exact numbers, for every goal and number of agents; with it the
patterns called good, the marks, the assessments, the recommendations and the bold entries of the menu. -/
theorem C129_double (g n : ℤ) (p : PatternType) (s : Size) :
    getQualifier (α := F64) g n p = getQualifier (α := ℝ) g n p ∧ isRecommended (α := F64) g n p = isRecommended (α := ℝ) g n p ∧
    patternGood F64 g n p = patternGood ℝ g n p ∧ patternMark F64 g s p = patternMark ℝ g s p ∧
    patternStatus F64 g s p = patternStatus ℝ g s p ∧ boldPatterns F64 g s = boldPatterns ℝ g s := by
  have q : ∀ n p, getQualifier (α := F64) g n p = getQualifier (α := ℝ) g n p := by
    intro n p
    have h1 := modifier_threshold g n p 13 (by norm_num)
    have h2 := modifier_threshold g n p 12 (by norm_num)
    have h3 := modifier_threshold g n p 10 (by norm_num)
    have h4 := modifier_threshold g n p 8 (by norm_num)
    rw [show ((13 : ℕ) : ℝ) / 10 = 1.3 by norm_num] at h1
    rw [show ((12 : ℕ) : ℝ) / 10 = 1.2 by norm_num] at h2
    rw [show ((10 : ℕ) : ℝ) / 10 = 1.0 by norm_num] at h3
    rw [show ((8 : ℕ) : ℝ) / 10 = 0.8 by norm_num] at h4
    change (1.3 : F64) ≤ _ ↔ _ at h1
    change (1.2 : F64) ≤ _ ↔ _ at h2
    change (1.0 : F64) ≤ _ ↔ _ at h3
    change (0.8 : F64) ≤ _ ↔ _ at h4
    unfold getQualifier
    simp only [ge_iff_le, h1, h2, h3, h4]
  refine ⟨q n p, ?_, ?_, ?_, ?_, ?_⟩
  · have h2 := modifier_threshold g n p 12 (by norm_num)
    rw [show ((12 : ℕ) : ℝ) / 10 = 1.2 by norm_num] at h2
    change (1.2 : F64) ≤ _ ↔ _ at h2
    unfold isRecommended
    simp only [ge_iff_le, h2]
  · unfold patternGood; rw [q]
  · unfold patternMark; rw [q]
  · unfold patternStatus; rw [q]
  · unfold boldPatterns patternGood; simp only [q]

/-- **C129 in doubles, good patterns.** -/
theorem C129_good_double (g n : ℤ) (p : PatternType) (hg : 0 ≤ g ∧ g ≤ 7) (hp : 1 ≤ p ∧ p ≤ 5) :
    patternGood F64 g n p = true ↔ p ∈ favourable n g := by
  rw [(C129_double g n p 0).2.2.1, C129_good g n p hg hp]

/-- Near misses: 1100 agents lower the grade of frequent requests from 1.1 to 0.99, and ten agents that of sparse ones, for an unknown goal, to 0.8 exactly. -/
example : getQualifier (α := F64) 5 1100 1 = "fair" ∧ getQualifier (α := F64) 9 10 5 = "fair" := by
  rw [(C129_double 5 1100 1 0).1, (C129_double 9 10 5 0).1]
  constructor
  · unfold getQualifier getCoherenceModifier modifierTable; norm_num
  · unfold getQualifier getCoherenceModifier modifierTable; norm_num

/-! ## Templates -/

/-- **C99 in doubles.** A template with a tolerance of at least 0, plus infinity included, matches its base and each of its variations. -/
theorem C99_own_double (hm : LibM.Exact) (t : Template F64) (h0 : 0 ≤ t.tolerance) (p : Temporal F64) (hp : p ∈ members t) (hn : p.phases ≠ [])
    (hf : ∀ x ∈ p.phases, F64.IsFinite x) (hl : p.phases.length < 2 ^ 53) (a : Dbl) (ha : p.amplitude = .fin a) (ha0 : 0 < a.1)
    (hd : 0 < p.period) (hd' : p.period < 2 ^ 63) : t.isMatch (some p) = true := by
  refine (C99_matches t _).2 ⟨p, hp, ?_⟩
  rw [C64_self_double hm p a ha ha0 hd hd' hn hf hl]
  generalize t.tolerance = x at h0
  match x, h0 with
  | .fin d, h0 =>
    have h0 : 0 ≤ d.1 := (F64.le_fin ⟨0, isDouble_zero⟩ d).1 h0
    rw [F64.one_def, F64.sub_fin]
    have := F64.ofReal_mono (show 1 - d.1 ≤ 1 by linarith)
    rw [F64.ofReal_of_isDouble isDouble_one] at this
    exact this
  | .pinf, _ => trivial

/-- A template of two phases and infinite tolerance, beside the theorem. -/
example (hm : LibM.Exact) : (⟨⟨[F64.fin ⟨0, isDouble_zero⟩, F64.fin ⟨1, isDouble_one⟩], [], F64.fin ⟨1, isDouble_one⟩, 5, 0⟩, [], F64.pinf⟩ :
    Template F64).isMatch (some ⟨[F64.fin ⟨0, isDouble_zero⟩, F64.fin ⟨1, isDouble_one⟩], [], F64.fin ⟨1, isDouble_one⟩, 5, 0⟩) = true := by
  refine C99_own_double hm _ (show (0 : F64) ≤ F64.pinf from trivial) _ (by simp [members]) (by simp) (by simp [F64.IsFinite]) (by simp) ⟨1, isDouble_one⟩ rfl ?_ ?_ ?_ <;> norm_num

/-! ## Waveforms -/

theorem morph_one (c t : Dbl) : F64.fin c * (1 - 0) + F64.fin t * 0 = .fin c ∧ F64.fin c * (1 - 1) + F64.fin t * 1 = .fin t := by
  have o : (1 : F64) - 0 = 1 := by
    rw [F64.one_def, F64.zero_def, F64.sub_fin]
    show F64.ofReal (1 - 0) = _
    rw [sub_zero, F64.ofReal_of_isDouble isDouble_one]
  have z : (1 : F64) - 1 = 0 := by
    rw [F64.one_def, F64.zero_def, F64.sub_fin]
    show F64.ofReal (1 - 1) = _
    rw [sub_self, F64.ofReal_of_isDouble isDouble_zero]
  have m1 : ∀ d : Dbl, F64.fin d * 1 = .fin d := fun d => by
    rw [F64.one_def, F64.mul_fin]
    show F64.ofReal (d.1 * 1) = _
    rw [mul_one, F64.ofReal_of_isDouble d.2]
  have m0 : ∀ d : Dbl, F64.fin d * 0 = 0 := fun d => by
    rw [F64.zero_def, F64.mul_fin]
    show F64.ofReal (d.1 * 0) = _
    rw [mul_zero, F64.ofReal_of_isDouble isDouble_zero]
  rw [o, z, m1, m0, m0, m1, F64.zero_def, F64.add_fin, F64.add_fin]
  constructor
  · show F64.ofReal (c.1 + 0) = _
    rw [add_zero, F64.ofReal_of_isDouble c.2]
  · show F64.ofReal (0 + t.1) = _
    rw [zero_add, F64.ofReal_of_isDouble t.2]

/-- **C65 in doubles, the end points.** For non-empty waveforms of finite samples the morph is exactly the resampled current waveform at progress 0 and
exactly the resampled template at progress 1: no rounding is left. -/
theorem C65_endpoints_double (current template l : List F64) (hc : current ≠ []) (ht : template ≠ []) (fc : ∀ x ∈ current, F64.IsFinite x)
    (ft : ∀ x ∈ template, F64.IsFinite x) :
    (morphWaveform current template 0 = .ok l →
      (∀ i x, l[i]? = some x → IsSample current l.length i x) ∧ (template.length ≤ current.length → l = current)) ∧
    (morphWaveform current template 1 = .ok l →
      (∀ i x, l[i]? = some x → IsSample template l.length i x) ∧ (current.length ≤ template.length → l = template)) := by
  have key : ∀ (side : List F64), (∀ i x, l[i]? = some x → IsSample side l.length i x) → side.length = l.length →
      l = side := by
    intro side h hl
    apply List.ext_getElem? fun i => ?_
    by_cases hi : i < l.length
    · have := h i _ (List.getElem?_eq_getElem hi)
      rw [← hl] at this
      rw [IsSample.self this, List.getElem?_eq_getElem hi]
    · rw [List.getElem?_eq_none (by omega), List.getElem?_eq_none (by omega)]
  have mem : ∀ (side : List F64) (n i : ℕ) (x : F64), IsSample side n i x → x ∈ side := fun side n i x ⟨j, hj, _⟩ => List.mem_of_getElem? hj
  refine ⟨fun e => ?_, fun e => ?_⟩
  all_goals
    obtain ⟨l', e', el, h⟩ := morph_spec current template _ (by simpa using hc) (by simpa using ht)
    rw [e] at e'; injection e' with e'; subst e'
  · have hs : ∀ i x, l[i]? = some x → IsSample current l.length i x := fun i x hx => by
      obtain ⟨c, t, h1, h2, h3⟩ := h i (List.getElem?_eq_some_iff.1 hx).1
      rw [hx] at h3
      obtain ⟨c, rfl⟩ := (isFinite_iff _).1 (fc c (mem _ _ _ _ h1))
      obtain ⟨t, rfl⟩ := (isFinite_iff _).1 (ft t (mem _ _ _ _ h2))
      rw [(morph_one c t).1] at h3
      injection h3 with h3
      rw [h3]; exact h1
    exact ⟨hs, fun hle => key current hs (by omega)⟩
  · have hs : ∀ i x, l[i]? = some x → IsSample template l.length i x := fun i x hx => by
      obtain ⟨c, t, h1, h2, h3⟩ := h i (List.getElem?_eq_some_iff.1 hx).1
      rw [hx] at h3
      obtain ⟨c, rfl⟩ := (isFinite_iff _).1 (fc c (mem _ _ _ _ h1))
      obtain ⟨t, rfl⟩ := (isFinite_iff _).1 (ft t (mem _ _ _ _ h2))
      rw [(morph_one c t).2] at h3
      injection h3 with h3
      rw [h3]; exact h2
    exact ⟨hs, fun hle => key template hs (by omega)⟩

/-- A template with an infinite sample spoils the morph already at progress 0: infinity times zero is NaN. -/
theorem C65_infinite : morphWaveform [1] [F64.pinf] (0 : F64) = .ok [.nan] := by
  have h : ∀ x : F64, x + F64.pinf * F64.fin ⟨0, isDouble_zero⟩ = .nan := by
    have : F64.pinf * F64.fin ⟨0, isDouble_zero⟩ = .nan := by
      show F64.mul _ _ = _
      unfold F64.mul; simp [F64.infSign]
    intro x
    rw [this]
    cases x <;> rfl
  unfold morphWaveform
  simp [morphAt, List.range_succ]
  exact h _

/-- A short waveform and a long template, beside `C65_endpoints_double`. -/
example : ∀ l, morphWaveform [F64.fin ⟨1, isDouble_one⟩] [F64.fin ⟨0, isDouble_zero⟩, F64.fin ⟨1, isDouble_one⟩] 1 = .ok l →
    l = [F64.fin ⟨0, isDouble_zero⟩, F64.fin ⟨1, isDouble_one⟩] := fun l h =>
  ((C65_endpoints_double _ _ l (by simp) (by simp) (by simp [F64.IsFinite]) (by simp [F64.IsFinite])).2 h).2 (by simp)

end
end Verif
